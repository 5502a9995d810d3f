import Verif.StepDur.Begin

/-!
# C230: a step lasts its duration
-/
namespace Ptusa.StepDur

open Operation (St SCfg Env Call OpState Op Ev)
open Resume (T Paused NoChange lift evalTime stepTime)

/-- C230.  Whatever happened before, a step begins to work at 0 when the operation is told to go to it. -/
theorem C230_begins (c : St → SCfg) (h : List (Nat × Ev)) (x y : T) (d k : Nat) (e : Env) (hx : Resume.run c h = some x)
    (hr : x.op.cur = .run) (h1 : 1 ≤ k) (h2 : k ≤ (c .run).steps) (hz : e.zeroDur (k - 1) = false)
    (hy : Resume.step c x (d, .toStep e k) = some y) : (y.op.st .run).main = some (k - 1) ∧ stepTime y = 0 := by
  have hO := Own.run hx
  simp only [Resume.step, Op.step, Option.map_some, Option.some.injEq] at hy
  obtain ⟨l, hl, hi, hf, hm⟩ := toStep_calls (c := c .run) (e := e) (r := x.op.st .run) h1 h2 hz
  have hst : (x.op.upd x.op.cur ((x.op.st x.op.cur).toStep (c x.op.cur) e k)).st .run =
      (x.op.st .run).toStep (c .run) e k := by rw [hr]; simp [Op.upd]
  rw [← hy]
  refine ⟨?_, ?_⟩
  · show ((x.op.upd x.op.cur ((x.op.st x.op.cur).toStep (c x.op.cur) e k)).st .run).main = _
    rw [hst]; exact hm
  · exact enter_time (c := c) (x := { x with now := x.now + d }) ⟨hO.inv, hO.nx, hO.dx⟩ (by rw [hst]; exact hl) hi (fun g => hf _ g) (by rw [hst]; exact hm)

example : ((Resume.run (fun _ => { steps := 3 }) [(0, .start {} {} 0), (9, .start {} {} 0), (0, .toStep {} 2), (3000, .toStep {} 2), (0, .toStep {} 3)]).map
    fun x => (decide (x.op.cur = .run), (x.op.st .run).main, stepTime x)) = some (true, some 2, 0) := by decide +kernel

/-- C230 (part).  From any moment in which an operation runs in step `m + 1`: whatever is called, with any number of pauses, as
long as nothing else asks the step to end and every pass comes before the step has worked for its duration `t`, the operation
(when it runs) is in this step, and the step has worked for the time the operation ran in it.  Not covered: a step that is
active in parallel too (`C230_parallel_violated`) and one entered while its duration was 0 (`C230_zero_violated`). -/
theorem C230_stays_partial (c : St → SCfg) (h g : List (Nat × Ev)) (x y : T) (m : Nat) (lim : Option Nat)
    (hx : Resume.run c h = some x) (hr : x.op.cur = .run) (hm : (x.op.st .run).main = some m)
    (hn : m + 1 ∉ (x.op.st .run).extra) (hl : lim ≠ some 0) (hw : Within c lim m x (stepTime x) g)
    (hy : Resume.runFrom c x g = some y) (hyr : y.op.cur = .run) :
    (y.op.st .run).main = some m ∧ stepTime y = worked c x.op (stepTime x) g := by
  have hO := Own.run hx
  have hb := hO.inv.basic .run
  have hA : At c m (stepTime x) x := by
    refine ⟨hO.inv, Resume.Bound.run hx, hb.main m hm, Or.inl hr, fun _ => ⟨⟨hb, hm, hn⟩, ?_⟩,
      fun p => (not_both hr p).elim⟩
    unfold stepTime; rw [hm]
  obtain ⟨i, t⟩ := (hA.run' hl g hw hy).run hyr
  refine ⟨i.main, ?_⟩
  rw [← t]
  unfold stepTime
  rw [i.main]

/-- C230 (part).  In the first pass that finds that the step has worked longer than its duration, the operation goes to the step
configured to follow it, which begins at 0; if there is none, it is asked to switch itself off. -/
theorem C230_leaves_partial (c : St → SCfg) (h g : List (Nat × Ev)) (x y z : T) (m t d : Nat) (e : Env)
    (hx : Resume.run c h = some x) (hr : x.op.cur = .run) (hm : (x.op.st .run).main = some m)
    (hn : m + 1 ∉ (x.op.st .run).extra) (ht : 0 < t) (hw : Within c (some t) m x (stepTime x) g)
    (hy : Resume.runFrom c x g = some y) (hyr : y.op.cur = .run)
    (hz : Resume.step c y (d, .evaluate e) = some z) (he : Timed (some t) { y with now := y.now + d } m e)
    (hover : t < worked c x.op (stepTime x) g + d) :
    ((c .run).next m = -1 → ((y.op.st .run).evaluate (c .run) e).2 = true ∧ (z.op.st .run).main = some m) ∧
    ∀ k : Nat, (c .run).next m = k → 1 ≤ k → k ≤ (c .run).steps → e.zeroDur (k - 1) = false →
      (z.op.st .run).main = some (k - 1) ∧ stepTime z = 0 ∧ ((y.op.st .run).evaluate (c .run) e).2 = false := by
  have hO := Own.runFrom g (Own.run hx) hy
  have hb := (Own.run hx).inv.basic .run
  have hA : At c m (stepTime x) x := by
    refine ⟨(Own.run hx).inv, Resume.Bound.run hx, hb.main m hm, Or.inl hr, fun _ => ⟨⟨hb, hm, hn⟩, ?_⟩,
      fun p => (not_both hr p).elim⟩
    unfold stepTime; rw [hm]
  have hAy := hA.run' (by intro q; cases q; omega) g hw hy
  obtain ⟨i, tw⟩ := hAy.run hyr
  have hel : e.elapsed m = true := by
    have hev : evalTime { y with now := y.now + d } m = worked c x.op (stepTime x) g + d := by
      have h2 := hAy.bound.2 m
      unfold evalTime at tw ⊢
      show y.now + d - y.start m + y.dx m = _
      omega
    unfold Timed clock at he
    simp only [Prod.mk.injEq] at he
    rw [he.2, hev]
    simpa using hover
  obtain ⟨r2, hr2, i2, k2, mv2⟩ : ∃ r2, (y.op.st .run).evaluate (c .run) e = r2.evalMain (c .run) e ∧
      In (c .run) m r2 ∧ Keep m (y.op.st .run) r2 ∧ Mv (c .run) (y.op.st .run) r2 := by
    have h0 : In (c .run) m { y.op.st .run with log := (y.op.st .run).log ++ [.eval none] } :=
      ⟨i.basic.evalMode, i.main, i.extra⟩
    have k0 : Keep m (y.op.st .run) { y.op.st .run with log := (y.op.st .run).log ++ [.eval none] } :=
      ⟨[.eval none], rfl, by simp⟩
    obtain ⟨a, b⟩ := In.extraLoop e (y.op.st .run).extra.length 0 h0
    obtain ⟨a2, b2⟩ := a.enableLoop e
    exact ⟨_, rfl, a2, (k0.trans b).trans b2,
      ((Mv.evalNone _ _).trans (Mv.extraLoop _ _ _ _ _)).trans (Mv.enableLoop _ _ _)⟩
  have hnx : r2.nextN = (c .run).next m := mv2.nx hO.nx m i2.main
  have hmain : r2.evalMain (c .run) e =
      if (c .run).next m = -1 then (r2, true) else (r2.toStep (c .run) e ((c .run).next m), false) := by
    unfold OpState.evalMain
    simp only [i2.main, hel, Bool.or_true, if_true, hnx]
  simp only [Resume.step, Op.step, Option.map_some, Option.some.injEq] at hz
  have hst : (y.op.evalCur c e).st .run = ((y.op.st .run).evaluate (c .run) e).1 := by
    simp [Op.evalCur, Op.upd, hyr]
  have hzo : z.op.st .run = (r2.evalMain (c .run) e).1 := by
    rw [← hr2, ← hst, ← hz]; rfl
  refine ⟨fun g1 => ?_, fun k g1 g2 g3 g4 => ?_⟩
  · rw [hzo, hr2, hmain, if_pos g1]
    exact ⟨rfl, i2.main⟩
  · have hneg : ¬ (c .run).next m = -1 := by rw [g1]; omega
    obtain ⟨l, hl, hi, hf, hmm⟩ := toStep_calls (c := c .run) (e := e) (r := r2) g2 g3 g4
    obtain ⟨l2, hl2, _⟩ := k2
    rw [hzo, hr2, hmain, if_neg hneg, g1]
    refine ⟨hmm, ?_, rfl⟩
    have hz2 : (y.op.evalCur c e).st .run = r2.toStep (c .run) e k := by
      rw [hst, hr2, hmain, if_neg hneg, g1]
    rw [← hz]
    refine enter_time (c := c) (x := { y with now := y.now + d }) (i := k - 1) (l := l2 ++ l)
      ⟨hO.inv, hO.nx, hO.dx⟩ ?_ (List.mem_append_right _ hi) (fun q => List.mem_append_right _ (hf (k - 1) ?_)) ?_
    · rw [hz2, hl, hl2, List.append_assoc]
    · have hq : (y.op.st .run).main = some (k - 1) := q
      rw [i2.main, ← i.main]; exact hq
    · rw [hz2]; exact hmm

/-- Running has two steps, the second follows the first. -/
def demo : St → SCfg
  | .run => { steps := 2, next := fun i => if i = 0 then 2 else -1 }
  | _ => { steps := 0, empty := true }

/-- A duration of 10 s, 6 s of work, an hour of pause, 4 s of work: the pass at 10 s leaves the step alone, the one 1 ms later
ends it. -/
example : ((Resume.run demo [(0, .start {} {} 0)]).bind fun x =>
    (Resume.runFrom demo x [(6000, .pause {} {}), (3600000, .startAgain {} {}), (4000, .evaluate {})]).bind fun y =>
    (Resume.step demo y (1, .evaluate { elapsed := fun _ => true })).map fun z =>
      ((x.op.st .run).main, (y.op.st .run).main, stepTime y, (z.op.st .run).main, stepTime z)) =
    some (some 0, some 0, 10000, some 1, 0) := by decide +kernel

example : worked demo ((Op.fresh demo).start demo {} {} 0) 0
    [(6000, .pause {} {}), (3600000, .startAgain {} {}), (4000, .evaluate {})] = 10000 := by decide +kernel

/-- The calls of the example meet the hypothesis. -/
example (x : T) (hx : Resume.run demo [(0, .start {} {} 0)] = some x) :
    Within demo (some 10000) 0 x 0 [(6000, .pause {} {}), (3600000, .startAgain {} {}), (4000, .evaluate {})] := by
  cases hx
  refine ⟨trivial, fun e g => (by cases g), fun y hy => ?_⟩
  cases hy
  refine ⟨⟨rfl, ⟨fun _ => rfl, fun _ => rfl, fun _ => rfl, fun _ => rfl, fun _ => rfl⟩⟩, fun e g => (by cases g), fun y hy => ?_⟩
  cases hy
  refine ⟨fun _ => rfl, fun e g _ => ?_, fun _ _ => trivial⟩
  cases g
  exact ⟨by decide +kernel, fun t q => by cases q; decide +kernel⟩

/-- C230 is violated for a step that is the main one and active in parallel: switching it off as a parallel step takes the
time it worked before a pause from it (here 6 of 6 s). -/
theorem C230_parallel_violated :
    ((Resume.run demo [(0, .start {} {} 0), (0, .onExtra {} 2), (0, .toStep {} 2)]).bind fun x =>
      (Resume.runFrom demo x [(6000, .pause {} {}), (1000, .startAgain {} {})]).bind fun y =>
      (Resume.step demo y (0, .offExtra 2)).map fun z =>
        ((y.op.st .run).main, stepTime y, (z.op.st .run).main, stepTime z)) =
    some (some 1, 6000, some 1, 0) := by decide +kernel

/-- C230 is violated for a step entered while its duration was 0: it has not begun, its time counts from its last
beginning, here from the start of the controller; when a duration is set before the next pass, the step is over at once. -/
theorem C230_zero_violated :
    ((Resume.run demo [(0, .start {} {} 0), (100000, .toStep { zeroDur := fun i => decide (i = 1) } 2)]).map fun x =>
      ((x.op.st .run).main, stepTime x, (clock (some 60000) x 1).2)) = some (some 1, 100000, true) := by decide +kernel

end Ptusa.StepDur
