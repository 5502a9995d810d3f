import Verif.Resume.Times

/-!
# C229: an operation goes on after a pause where it was
-/
namespace Ptusa.Resume

open Operation (St SCfg Env Call OpState Op Ev)

/-- Configuration of the examples: running has three steps, `unpausing` one, the others are empty. -/
def demo : St → SCfg
  | .run => { steps := 3 }
  | .unpausing => { steps := 1 }
  | _ => { steps := 0, empty := true }

/-- A history that switches step 3 on in parallel, and goes to step 2 after a second. -/
def demoH : List (Nat × Ev) := [(0, .start {} {} 0), (1000, .onExtra {} 3), (0, .toStep {} 2)]

/-- C229 (part).  An operation that runs in step `m + 1` is paused, whatever is called while it is paused, and started
again without a step number or with the one it was in: it is in the same step, with the same parallel steps, all of them
in use, and its step has worked as long as when it was paused.  (The step has a duration other than 0, and nothing asks
for a change of steps in the cycle it is started.)  Not covered: an operation without an active step
(`C229_none_violated`), and the times of parallel steps (`C229_extra_violated`). -/
theorem C229_goes_on_partial (c : St → SCfg) (h hp : List (Nat × Ev)) (x y z : T) (d d' : Nat) (e e1 e2 e3 : Env)
    (m : Nat) (k : Int) (o : Op)
    (hx : run c h = some x) (hr : x.op.cur = .run) (hm : (x.op.st .run).main = some m)
    (hy : runFrom c x ((d, .pause e e1) :: hp) = some y)
    (hs : StaysPaused c (x.op.pause c e e1) (hp.map Prod.snd) o)
    (hk : k ≤ 0 ∨ k = (m : Int) + 1) (hz : step c y (d', .start e2 e3 k) = some z) (hzr : z.op.cur = .run)
    (h2 : e2.zeroDur m = false) (h3 : NoChange e3) :
    (z.op.st .run).main = some m ∧ (z.op.st .run).extra = (x.op.st .run).extra ∧
    (z.op.st .run).act[m]? = some true ∧
    (∀ j ∈ (x.op.st .run).extra, (z.op.st .run).act[j - 1]? = some true) ∧
    stepTime z = stepTime x + d := by
  have hI := ((Operation.inv_fresh c).runEv _ (runFrom_op h hx)).basic .run
  have hbx : Bound x := Bound.run hx
  simp only [runFrom] at hy
  cases hp1 : step c x (d, .pause e e1) with
  | none => rw [hp1] at hy; cases hy
  | some p =>
    rw [hp1] at hy
    have hpop : p.op = x.op.pause c e e1 := by
      have := step_op hp1
      exact (Option.some.inj this).symm
    obtain ⟨hd1, _, hyo⟩ := stays_times hp hy (hpop ▸ hs)
    obtain ⟨hf1, hf2, hpa⟩ := stays_frame _ hs
    obtain ⟨hq1, hq2⟩ := pause_run (c := c) (e := e) (e2 := e1) hr
    have hpd : p.dxStep = stepTime x + d := by
      simp only [step, Option.some.injEq] at hp1
      subst hp1
      unfold pause
      rw [if_pos hr, (lift_frame _ _).2.1]
      show (keep { x with now := x.now + d }).dxStep = _
      unfold keep stepTime
      simp only [hm, evalTime]
      have := hbx.2 m
      omega
    have hrun : y.op.st .run = (x.op.st .run).save.finalize := by rw [hyo, hf1, hq1]
    have hrs : y.op.runStep = (m : Int) + 1 := by
      rw [hyo, hf2, hq2]; simp [OpState.activeStep, hm]
    have hsav : (y.op.st .run).saved = (x.op.st .run).extra := by
      rw [hrun, Operation.finalize_saved]; rfl
    have hBf : Operation.Basic (c .run) (x.op.st .run).save.finalize := by
      refine Operation.Basic.finalize ?_
      exact ⟨hI.len, hI.main, hI.extra, hI.extra, hI.logged, hI.modeLogged⟩
    have hmlt := hI.main m hm
    have key : ∀ ox : Op, (ox.st .run) = y.op.st .run → ox.runStep = y.op.runStep →
        z = toRun c e2 e3 k ox { y with now := y.now + d' } → _ := fun ox g1 g2 g3 =>
      toRun_resume (c := c) (e := e2) (e2 := e3) (k := k) (o := ox) (z := { y with now := y.now + d' }) (m := m)
        (by rw [g1]) hmlt (g2.trans hrs) hk (by rw [g1, hrun]; exact hBf.len)
        (by rw [g1, hrun]; exact hBf.saved) h2 h3
    have fin : ∀ ox : Op, (ox.st .run) = y.op.st .run → ox.runStep = y.op.runStep →
        z = toRun c e2 e3 k ox { y with now := y.now + d' } →
        (z.op.st .run).main = some m ∧ (z.op.st .run).extra = (x.op.st .run).extra ∧
        (z.op.st .run).act[m]? = some true ∧
        (∀ j ∈ (x.op.st .run).extra, (z.op.st .run).act[j - 1]? = some true) ∧
        stepTime z = stepTime x + d := by
      intro ox g1 g2 g3
      obtain ⟨a1, a2, a3, a4, a5, _⟩ := key ox g1 g2 g3
      rw [g1, hsav] at a2 a4
      rw [g3]
      exact ⟨a1, a2, a3, a4, a5.trans (hd1.trans hpd)⟩
    simp only [step, Option.some.injEq] at hz
    have hpy : Paused y.op := hyo ▸ hpa
    have hcase : ∀ (g : y.op.cur = .pausing), False := by
      intro g
      have ho : z.op = y.op.start c e2 e3 k := by rw [← hz, start_op]
      have := Operation.start_cur c e2 e3 k y.op
      rw [← ho, hzr, g] at this
      cases this
    rcases hpy with g | g | g
    · exact (hcase g).elim
    · by_cases hu : (c .unpausing).empty = true
      · refine fin (y.op.fin .pause) (by simp [Op.fin, Op.upd]) rfl ?_
        rw [← hz]
        unfold start
        simp only [g]
        rw [if_pos hu]
      · exfalso
        have ho : z.op = y.op.start c e2 e3 k := by rw [← hz, start_op]
        have := Operation.start_cur c e2 e3 k y.op
        rw [← ho, hzr, g] at this
        simp [Operation.diagram, hu] at this
    · refine fin y.op rfl rfl ?_
      rw [← hz]
      unfold start
      simp only [g]

/-- Step 2 with step 3 in parallel, paused after 7 s, started an hour later: through `unpausing` it goes on. -/
example :
    ((run demo demoH).bind fun x => (runFrom demo x [(7000, .pause {} {}), (3600000, .start {} {} 0), (500, .evaluate {}),
      (500, .start {} {} 0)]).map fun z => (decide (x.op.cur = .run ∧ z.op.cur = .run), (x.op.st .run).main,
        (z.op.st .run).main, (z.op.st .run).extra, stepTime z)) = some (true, some 1, some 1, [3], 7000) := by decide +kernel

/-- Its hypothesis on the pause is met. -/
example : StaysPaused demo ((((Op.fresh demo).start demo {} {} 0)).pause demo {} {}) [.start {} {} 0, .evaluate {}]
    (((((Op.fresh demo).start demo {} {} 0).pause demo {} {}).start demo {} {} 0).evalCur demo {}) := by
  refine ⟨by decide +kernel, _, rfl, by decide +kernel, _, rfl, by decide +kernel, rfl⟩

example : NoChange {} := ⟨fun _ => rfl, fun _ => rfl, fun _ => rfl, fun _ => rfl, fun _ => rfl⟩

/-- C229 is violated for an operation without an active step (switched off by the program): after a pause its first step is
active. -/
theorem C229_none_violated :
    ((run demo [(0, .start {} {} 0), (1000, .turnOff)]).bind fun x =>
      (runFrom demo x [(7000, .pause {} {}), (3600000, .start {} {} 0), (500, .start {} {} 0)]).map fun z =>
        (x.op.cur, (x.op.st .run).main, z.op.cur, (z.op.st .run).main)) = some (.run, none, .run, some 0) := by
  decide +kernel

/-- C229 is violated for the times of parallel steps: the parallel step of the example, 9 s old when the operation is
paused, begins anew. -/
theorem C229_extra_violated :
    ((run demo demoH).bind fun x => (runFrom demo x [(7000, .evaluate {})]).bind fun y =>
      (runFrom demo y [(2000, .pause {} {}), (3600000, .start {} {} 0), (500, .start {} {} 0)]).map fun z =>
        ((x.op.st .run).extra, evalTime y 2, (z.op.st .run).extra, evalTime z 2)) = some ([3], 7000, [3], 0) := by
  decide +kernel

/-- C229 (part).  The working time of an operation that is being started, runs or is paused is the time it spent
running since it was started, over any number of pauses.  Not covered: an operation that was stopped
(`C229_stop_violated`). -/
theorem C229_time_partial (c : St → SCfg) (h : List (Nat × Ev)) (x : T) (hx : run c h = some x)
    (hc : x.op.cur = .starting ∨ x.op.cur = .run ∨ Paused x.op) : opTime x = worked c (Op.fresh c) 0 h := by
  have hw : Worked x (worked c (Op.fresh c) 0 h) :=
    runFrom_worked h (w := 0) ⟨fun g => absurd (show St.idle = .run from g) (by decide), fun _ => rfl⟩ ⟨Nat.le_refl _, fun _ => Nat.le_refl _⟩ hx
  unfold opTime
  rcases hc with g | g | g
  · rw [if_neg (by rw [g]; decide)]; exact hw.2 (Or.inl g)
  · rw [if_pos g]; exact hw.1 g
  · rw [if_neg (by rcases g with g | g | g <;> rw [g] <;> decide)]; exact hw.2 (Or.inr g)

example : ((run demo (demoH ++ [(7000, .pause {} {}), (3600000, .start {} {} 0), (500, .start {} {} 0),
    (3000, .evaluate {})])).map fun x => (x.op.cur, opTime x)) = some (.run, 11000) := by decide +kernel

/-- C229 is violated by a stop: the time since the last start or pause is lost, the panel shows 0 for an operation that
has just worked for an hour. -/
theorem C229_stop_violated :
    ((run demo [(0, .start {} {} 0), (3600000, .stop {} {})]).map fun x => (x.op.cur, opTime x)) = some (.stop, 0) ∧
    worked demo (Op.fresh demo) 0 [(0, .start {} {} 0), (3600000, .stop {} {})] = 3600000 := by decide +kernel

end Ptusa.Resume
