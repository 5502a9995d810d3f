import Verif.StepMax.Lemmas

/-!
# C231: a step that lasts longer than its maximal time is reported
-/
namespace Ptusa.StepMax

open Operation (St SCfg Env Call OpState Op Ev)
open Resume (T Paused lift)
open StepDur (In Keep)
open Actions (TimeErr makeStr checkExtra)

/-- C231.  Whatever happened before: when a step with the maximal time `t` (in seconds) was begun or gone on with after a pause, and
neither ends nor is paused (whatever else is called, by whatever passes), the first pass that comes `t` seconds later or more
reports this step and this time, and the operation pauses. -/
theorem C231_reports (c : St → SCfg) (h g : List (Nat × Ev)) (x y z : T) (d m : Nat) (ev : Ev) (p : Pass)
    (hx : Resume.run c h = some x) (hs : Resume.step c x (d, ev) = some y) (hb : Begins m x.op ev y.op)
    (hn : m + 1 ∉ (y.op.st .run).extra) (hg : ∀ v ∈ g, Leaves m v.2) (hz : Resume.runFrom c y g = some z)
    (hp : Leaves m (.evaluate p.e)) (h0 : 0 < p.par m) (hl : 1000 * p.par m ≤ total g + p.d) :
    ∃ w, pass c p z = some (w, [⟨m + 1, p.par m⟩]) ∧ Paused w.op := by
  have sz := (Since.begin hx hs hb hn).runFrom g hg hz
  obtain ⟨w, hw⟩ : ∃ w, Resume.step c z (p.d, .evaluate p.e) = some w := ⟨_, rfl⟩
  have sw := sz.step hp hw
  have ask : ((z.op.st z.op.cur).evaluate (c z.op.cur) p.e).2 = false := by
    rw [sz.cur]
    obtain ⟨r2, e2, i2, _⟩ := sz.here.before p.e
    rw [e2]
    unfold OpState.evalMain
    simp only [i2.main, hp.1, hp.2.1, hp.2.2, Bool.or_self, Bool.false_eq_true, if_false]
  have ev' : evaluated c p z = some w := by
    unfold evaluated
    rw [hw, ask]
    simp
  have lt : m < (c .run).steps := sw.here.basic.main m sw.here.main
  have lat : latest w m = total g + p.d := by
    unfold latest
    rw [sw.start, sw.now]
    omega
  have hh : held p (z.op.st .run).main (w.op.st .run).main = p.par m := by
    unfold held
    rw [sz.here.main, sw.here.main]
    dsimp only
    split <;> rfl
  have hc : check (c .run) p (p.par m) w = some (some ⟨m + 1, p.par m⟩) := by
    unfold check
    simp only [sw.here.main]
    rw [if_pos ⟨lt, by omega, by omega⟩]
    unfold makeStr
    rw [if_pos lt]
    rfl
  refine ⟨Resume.pause c p.p1 p.p2 w, ?_, ?_⟩
  · unfold pass
    rw [ev', Option.bind_some, if_pos sw.cur, hh, hc]
    rfl
  · have ho : (Resume.pause c p.p1 p.p2 w).op = w.op.pause c p.p1 p.p2 := by
      unfold Resume.pause
      split <;> rfl
    unfold Paused
    rw [ho, Operation.pause_cur, sw.cur]
    simp only [Operation.diagram, Option.getD_some]
    split <;> simp

/-- C231 (part).  A pass that comes earlier, or finds no maximal time for the step, reports nothing, and the operation goes on in
this step.  Not covered: parallel steps with an own maximal time (C44 is about them). -/
theorem C231_quiet_partial (c : St → SCfg) (h g : List (Nat × Ev)) (x y z : T) (d m : Nat) (ev : Ev) (p : Pass)
    (hx : Resume.run c h = some x) (hs : Resume.step c x (d, ev) = some y) (hb : Begins m x.op ev y.op)
    (hn : m + 1 ∉ (y.op.st .run).extra) (hg : ∀ v ∈ g, Leaves m v.2) (hz : Resume.runFrom c y g = some z)
    (hp : Leaves m (.evaluate p.e)) (hl : p.par m = 0 ∨ total g + p.d < 1000 * p.par m) (ho : ∀ i, i ≠ m → p.par i = 0) :
    ∃ w, pass c p z = some (w, []) ∧ At m w.op := by
  have sz := (Since.begin hx hs hb hn).runFrom g hg hz
  obtain ⟨w, hw⟩ : ∃ w, Resume.step c z (p.d, .evaluate p.e) = some w := ⟨_, rfl⟩
  have sw := sz.step hp hw
  have ask : ((z.op.st z.op.cur).evaluate (c z.op.cur) p.e).2 = false := by
    rw [sz.cur]
    obtain ⟨r2, e2, i2, _⟩ := sz.here.before p.e
    rw [e2]
    unfold OpState.evalMain
    simp only [i2.main, hp.1, hp.2.1, hp.2.2, Bool.or_self, Bool.false_eq_true, if_false]
  have ev' : evaluated c p z = some w := by
    unfold evaluated
    rw [hw, ask]
    simp
  have lat : latest w m = total g + p.d := by
    unfold latest
    rw [sw.start, sw.now]
    omega
  have hh : held p (z.op.st .run).main (w.op.st .run).main = p.par m := by
    unfold held
    rw [sz.here.main, sw.here.main]
    dsimp only
    split <;> rfl
  have hc : check (c .run) p (p.par m) w = some none := by
    unfold check
    simp only [sw.here.main]
    rw [if_neg (by rintro ⟨_, g1, g2⟩; rcases hl with q | q <;> omega)]
    refine checkExtra_none fun a ha => Or.inl (ho _ ?_)
    have h1 := (sw.here.basic.extra a ha).1
    have h2 : a ≠ m + 1 := fun q => sw.here.extra (q ▸ ha)
    omega
  refine ⟨w, ?_, sw.cur, sw.here.main⟩
  unfold pass
  rw [ev', Option.bind_some, if_pos sw.cur, hh, hc]
  rfl

/-- C231 (part).  A pass in which the operation goes to another step reports nothing, when this step is not skipped and
parallel steps have no maximal time, whatever the maximal times of the two steps are. -/
theorem C231_change_partial (c : St → SCfg) (h : List (Nat × Ev)) (x y : T) (m : Nat) (p : Pass)
    (hx : Resume.run c h = some x) (hy : evaluated c p x = some y) (hb : Begins m x.op (.evaluate p.e) y.op)
    (ho : ∀ i, i + 1 ∈ (y.op.st .run).extra → p.par i = 0) : pass c p x = some (y, []) := by
  have hs : Resume.step c x (p.d, .evaluate p.e) = some y := by
    unfold evaluated at hy
    rw [Option.map_eq_some_iff] at hy
    obtain ⟨w, h1, h2⟩ := hy
    by_cases g : ((x.op.st x.op.cur).evaluate (c x.op.cur) p.e).2 = true ∧ p.off = true
    · rw [if_pos g] at h2
      exfalso
      have hc := hb.2.1.1
      rw [← h2] at hc
      unfold Resume.finalize at hc
      by_cases q : w.op.cur = .idle
      · rw [if_pos q, q] at hc; cases hc
      · rw [if_neg q] at hc
        have : (Resume.leave w.op.finalize w).op = w.op.finalize := by
          unfold Resume.leave
          split <;> rfl
        change (Resume.leave w.op.finalize w).op.cur = _ at hc
        rw [this] at hc
        unfold Op.finalize at hc
        rw [if_neg q] at hc
        cases hc
    · rw [if_neg g] at h2; rw [h1, h2]
  have l0 : latest y m = 0 := by
    unfold latest
    rw [begins_start hs hb, step_now hs hb]
    omega
  have bas := ((StepDur.Own.run hx).inv.step (Resume.step_op hs)).basic .run
  have hc : ∀ mx, check (c .run) p mx y = some none := by
    intro mx
    unfold check
    simp only [hb.2.1.2]
    rw [if_neg (by rintro ⟨_, g1, g2⟩; rw [l0] at g2; omega)]
    refine checkExtra_none fun a ha => Or.inl (ho _ ?_)
    have := (bas.extra a ha).1
    have e : a - 1 + 1 = a := by omega
    rw [e]; exact ha
  unfold pass
  rw [hy, Option.bind_some, if_pos hb.2.1.1, hc]
  rfl

/-- Running has two steps, the second follows the first. -/
def demo : St → SCfg
  | .run => { steps := 2, next := fun i => if i = 0 then 2 else -1 }
  | _ => { steps := 0, empty := true }

/-- The first step may last a minute. -/
def minute (i : Nat) : Nat := if i = 0 then 60 else 0

/-- The step is begun, after 50 s paused, gone on with; 59.999 s later nothing is reported, at 60 s it is. -/
example : ((Resume.run demo [(0, .start {} {} 0), (50000, .pause {} {})]).bind fun x =>
    (Resume.step demo x (1000, .startAgain {} {})).bind fun y =>
    (Resume.runFrom demo y [(30000, .evaluate {}), (20000, .onExtra {} 2)]).bind fun z =>
    (pass demo { d := 9999, par := minute } z).bind fun a =>
    (pass demo { d := 10000, par := minute } z).map fun b =>
      (a.2, decide (a.1.op.cur = .run), b.2, decide (b.1.op.cur = .pause))) =
    some ([], true, [⟨1, 60⟩], true) := by decide +kernel

/-- The calls of the example meet the hypotheses. -/
example (x y : T) (hx : Resume.run demo [(0, .start {} {} 0), (50000, .pause {} {})] = some x)
    (hy : Resume.step demo x (1000, .startAgain {} {}) = some y) :
    Begins 0 x.op (.startAgain {} {}) y.op ∧ 0 + 1 ∉ (y.op.st .run).extra ∧
    ∀ v ∈ [((30000 : Nat), Ev.evaluate {}), (20000, .onExtra {} 2)], Leaves 0 v.2 := by
  cases hx
  cases hy
  refine ⟨⟨fun g => (by cases g.1), ⟨rfl, rfl⟩, rfl, rfl⟩, fun g => (by cases g), fun v hv => ?_⟩
  simp only [List.mem_cons, List.not_mem_nil, or_false] at hv
  rcases hv with rfl | rfl
  · exact ⟨rfl, rfl, rfl⟩
  · trivial

/-- Going from the first step to the second one after 30 s. -/
example : ((Resume.run demo [(0, .start {} {} 0)]).bind fun x =>
    (pass demo { d := 30000, e := { elapsed := fun i => decide (i = 0) }, par := minute } x).map fun a =>
      (a.2, decide (a.1.op.cur = .run), (a.1.op.st .run).main)) = some ([], true, some 1) := by decide +kernel

/-- C231 is violated when the operation goes to a step that is to be skipped (its duration is set to 0): such a step is not begun, so that
its time counts from its last beginning, here from the start of the controller, and the maximal time of the step before is taken for
it.  After 30 of 60 s allowed, the operation is paused with the message that the second step, which has no maximal time, has
exceeded the 60 s.  With debug output this does not happen. -/
theorem C231_skipped_violated :
    ((Resume.run demo [(40000, .start {} {} 0)]).bind fun x =>
      (pass demo { d := 30000, e := { elapsed := fun i => decide (i = 0), zeroDur := fun i => decide (i = 1) }, par := minute } x).bind fun a =>
      (pass demo { d := 30000, e := { elapsed := fun i => decide (i = 0), zeroDur := fun i => decide (i = 1) }, par := minute, dbg := true } x).map fun b =>
        ((x.op.st .run).main, a.2, decide (a.1.op.cur = .pause), b.2, decide (b.1.op.cur = .run))) =
    some (some 0, [⟨2, 60⟩], true, [], true) := by decide +kernel

end Ptusa.StepMax
