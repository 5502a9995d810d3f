import Verif.CipErr.Model

/-!
# C92: faults of a wash

What the check of a wash should notice, in terms of what it reads and of the history of the checks.
-/
namespace Ptusa.CipErr

/-- The error with this number is blocked by the parameter. -/
def Blocked (i : Inp) (k : Nat) : Prop := ∃ q : Rat, i.block = .num q ∧ q.floor.toNat.testBit k = true

/-- The sensors of the small tank contradict each other: a higher one is covered and a lower one is not. -/
def Contradiction (i : Inp) : Prop :=
  (i.ll = false ∧ (i.lm = true ∨ i.lh = true)) ∨ (i.lm = false ∧ i.lh = true)

/-- The pump runs and the flow is not above the limit. -/
def NoFlow (i : Inp) : Prop := i.np = 1 ∧ i.flow.le i.flowMin = true

/-- The step washes with caustic or takes it from its tank; the same for acid; a medium is on the way to the object or
in it. -/
def UsesCaustic (step : Int) : Prop := (22 ≤ step ∧ step ≤ 40) ∨ (105 ≤ step ∧ step ≤ 111)
def UsesAcid (step : Int) : Prop := (42 ≤ step ∧ step ≤ 60) ∨ (115 ≤ step ∧ step ≤ 121)
def Medium (step : Int) : Prop :=
  step ∈ [22, 23, 24, 26, 28, 29, 31, 33, 34, 35] ∨ step ∈ [42, 43, 44, 46, 48, 49, 53, 54, 55]

/-- The faults that are noticed at once, and those noticed after a while as they show in one check. -/
def Fault (i : Inp) : Err → Prop
  | .pump => i.np < 0
  | .ret => i.ret = some (-1)
  | .os => i.os = some false
  | .object => i.objReady = some false ∨ i.cipReady = some false
  | .levelBachok => Contradiction i ∧ ¬ Blocked i 0
  | .levelTankS => UsesCaustic i.step ∧ i.lsl = false ∧ i.lsh = true ∧ ¬ Blocked i 1
  | .levelTankK => UsesAcid i.step ∧ i.lkl = false ∧ i.lkh = true ∧ ¬ Blocked i 2
  | .levelTankW => i.lwl = false ∧ i.lwh = true ∧ ¬ Blocked i 3
  | .supplyTemp => (i.tpState < 0 ∨ ∃ q : Rat, i.tp = .num q ∧ q ≤ -1) ∧ ¬ Blocked i 4
  | .returnTemp => (i.trState < 0 ∨ ∃ q : Rat, i.tr = .num q ∧ q ≤ -1) ∧ ¬ Blocked i 5
  | .conc => Medium i.step ∧ i.qState < 0 ∧ ¬ Blocked i 6
  | .noFlow => NoFlow i

/-- The errors that are noticed only after a while. -/
def Delayed : Err → Prop
  | .pump | .levelBachok | .noFlow => True
  | _ => False

/-- At the end of the history there are checks since the time `t`, and all of them (the last step of a wash does not
count) show `p`. -/
def Since (p : Inp → Prop) (h : List (Tm × Ev)) (t : Tm) : Prop :=
  ∃ h1 j r h2, h = h1 ++ (t, .check j r) :: h2 ∧ j.step ≠ 555 ∧
    ∀ x ∈ (t, Ev.check j r) :: h2, ∀ k r', x.2 = .check k r' → k.step ≠ 555 → p k

/-- At the end of the history there are checks since the time `t`, all of them without an error, with the pump running and
no flow. -/
def NoFlowSince (h : List (Tm × Ev)) (t : Tm) : Prop :=
  ∃ h1 j h2, h = h1 ++ (t, .check j none) :: h2 ∧
    ∀ x ∈ (t, Ev.check j none) :: h2, ∃ k, x.2 = .check k none ∧ k.step ≠ 555 ∧ NoFlow k

/-- At the time `t` a check saw the pump running without flow; since then no step was started or resumed and no check
without an error saw the pump running with flow. -/
def NoFlowSeen (h : List (Tm × Ev)) (t : Tm) : Prop :=
  ∃ h1 j r h2, h = h1 ++ (t, .check j r) :: h2 ∧ NoFlow j ∧
    ∀ x ∈ h2, x.2 ≠ .init ∧ ∀ k, x.2 = .check k none → k.step ≠ 555 → k.np = 1 → NoFlow k

end Ptusa.CipErr
