import Verif.Guard.Lemmas

/-!
# C147 to C150: supervision of operations, switching on, devices of actions
-/
namespace Ptusa.Guard

open Operation (St SCfg Env Op Ev OpState Quiet inUse)
open Actions (TimeErr checkMaxStepTime)

/-! ## C147 -/

/-- C147.  In a pass that leaves a running operation in its state `RUN` (after any history of calls, and whatever was commanded
during the evaluation), a failed device of the operation itself or of its main step pauses the operation, when pausing is
switched on: the state follows the diagram, nothing of `RUN` stays active, and the one message names all failed
devices of one action in use, and no others.  (Devices of seats are not covered, see `C147_seats_violated`, nor those of extra steps, see
`C147_extra_violated`.) -/
theorem C147_pauses_partial (c : Cfg) (w : World) (es : List Ev) (o o1 : Op)
    (h : (Op.fresh c.sc).runEv c.sc es = some o)
    (h1 : (o.evalCur c.sc w.eval).runEv c.sc w.inner = some o1) (hc : o1.cur = .run)
    (ha : w.autoPause = 0) (hk : w.checkMode < 0 ∨ w.checkMode = 1)
    (hf : ∃ d, FaultyPlain w.dev (mainActs c (o1.st .run)) d) :
    ∃ o' f, pass c w o = some (o', [.devices f]) ∧ o'.cur = (if (c.sc .pausing).empty then .pause else .pausing) ∧
      Quiet (o'.st .run) ∧ f ≠ [] ∧
      ∃ a ∈ mainActs c (o1.st .run), a.isPlain ∧ ∀ d, d ∈ f ↔ Fault w.dev d ∧ a.owns d := by
  have hh := history h h1
  obtain ⟨hp, hq⟩ := pause_run hh hc w.p1.1 w.p1.2
  cases hfl : faults c w.dev (o1.st .run) with
  | none =>
    obtain ⟨d, hd⟩ := hf
    exact absurd hd ((faults_none (main_lt hh)).mp hfl d)
  | some f =>
    obtain ⟨hne, a, ham, had⟩ := faults_some hfl
    have hap : a.isPlain := by
      obtain ⟨d, hd⟩ := List.exists_mem_of_ne_nil _ hne
      exact ((had d).mp hd).2.1
    refine ⟨o1.pause c.sc w.p1.1 w.p1.2, f, ?_, hp, hq, hne, a, ham, hap, fun d => ?_⟩
    · rw [pass_eq h1]
      unfold supervise
      rw [hfl]
      have hck := (checkOn_iff w.checkMode).mpr hk
      simp only [ha, hc, hck, and_self, if_true]
      rw [if_neg]
      rw [hp]
      split <;> decide
    · rw [had d]
      exact ⟨fun x => ⟨x.1, x.2.2⟩, fun x => ⟨x.1, hap, x.2⟩⟩

/-- C147 (part).  The same when the steps have durations and all of them are zero. -/
theorem C147_durations_partial (c : Cfg) (w : World) (es : List Ev) (o o1 : Op)
    (h : (Op.fresh c.sc).runEv c.sc es = some o)
    (h1 : (o.evalCur c.sc w.eval).runEv c.sc w.inner = some o1) (hc : o1.cur = .run)
    (hf : ∀ d, ¬ FaultyPlain w.dev (mainActs c (o1.st .run)) d) (hz : NoDuration c w.param) :
    ∃ o', pass c w o = some (o', [.params]) ∧ o'.cur = (if (c.sc .pausing).empty then .pause else .pausing) ∧
      Quiet (o'.st .run) := by
  have hh := history h h1
  obtain ⟨hp, hq⟩ := pause_run hh hc w.p2.1 w.p2.2
  refine ⟨o1.pause c.sc w.p2.1 w.p2.2, ?_, hp, hq⟩
  rw [pass_eq h1]
  unfold supervise
  rw [(faults_none (main_lt hh)).mpr hf]
  simp only [hc, if_true, (allZero_iff c w.param).mpr hz]
  split
  · rw [hq.main, hq.extra]
    rfl
  · rfl

/-- C147 (part).  The same when the main step or an extra step has reached its maximal time (`Ptusa.Actions`, C44); the message
is about that step. -/
theorem C147_time_partial (c : Cfg) (w : World) (es : List Ev) (o o1 : Op) (e : TimeErr)
    (h : (Op.fresh c.sc).runEv c.sc es = some o)
    (h1 : (o.evalCur c.sc w.eval).runEv c.sc w.inner = some o1) (hc : o1.cur = .run)
    (hf : ∀ d, ¬ FaultyPlain w.dev (mainActs c (o1.st .run)) d) (hz : ¬ NoDuration c w.param) (hm : c.hasMax = true)
    (ht : checkMaxStepTime (c.sc .run).steps (o1.st .run).main w.maxOf w.elapsed (o1.st .run).extra = some (some e)) :
    ∃ o', pass c w o = some (o', [.time e]) ∧ o'.cur = (if (c.sc .pausing).empty then .pause else .pausing) ∧
      Quiet (o'.st .run) := by
  have hh := history h h1
  obtain ⟨hp, hq⟩ := pause_run hh hc w.p3.1 w.p3.2
  refine ⟨o1.pause c.sc w.p3.1 w.p3.2, ?_, hp, hq⟩
  rw [pass_eq h1]
  unfold supervise
  rw [(faults_none (main_lt hh)).mpr hf]
  have hz' : allZero c w.param = false := by
    cases hx : allZero c w.param with
    | true => exact absurd ((allZero_iff c w.param).mp hx) hz
    | false => rfl
  simp only [hc, if_true, hz', Bool.false_eq_true, if_false, hm, ht]
  rfl

/-- C147 (part).  Only then: an operation in another state is left alone, and so is a running one without failed devices
(of its own or of its main step), with a duration, and within the maximal times of its steps. -/
theorem C147_only_partial (c : Cfg) (w : World) (es : List Ev) (o o1 : Op)
    (h : (Op.fresh c.sc).runEv c.sc es = some o)
    (h1 : (o.evalCur c.sc w.eval).runEv c.sc w.inner = some o1)
    (hr : o1.cur = .run → (∀ d, ¬ FaultyPlain w.dev (mainActs c (o1.st .run)) d) ∧ ¬ NoDuration c w.param ∧
      (c.hasMax = true → checkMaxStepTime (c.sc .run).steps (o1.st .run).main w.maxOf w.elapsed (o1.st .run).extra = some none)) :
    pass c w o = some (o1, []) := by
  have hh := history h h1
  rw [pass_eq h1]
  unfold supervise
  by_cases hc : o1.cur = .run
  · obtain ⟨hf, hz, ht⟩ := hr hc
    rw [(faults_none (main_lt hh)).mpr hf]
    have hz' : allZero c w.param = false := by
      cases hx : allZero c w.param with
      | true => exact absurd ((allZero_iff c w.param).mp hx) hz
      | false => rfl
    simp only [hc, if_true, hz', Bool.false_eq_true, if_false]
    split
    · rename_i hm
      rw [ht hm]
      rfl
    · rfl
  · cases faults c w.dev (o1.st .run) <;> simp [hc]

/-- C147 (part).  Every outcome of a pass: nothing happens, or there is one message and the operation is paused once. -/
theorem C147_one_message_partial (c : Cfg) (w : World) (es : List Ev) (o o1 o' : Op) (msgs : List Msg)
    (h : (Op.fresh c.sc).runEv c.sc es = some o)
    (h1 : (o.evalCur c.sc w.eval).runEv c.sc w.inner = some o1) (hp : pass c w o = some (o', msgs)) :
    (msgs = [] ∧ o' = o1) ∨
      (o1.cur = .run ∧ (∃ m, msgs = [m]) ∧ o'.cur = (if (c.sc .pausing).empty then .pause else .pausing) ∧ Quiet (o'.st .run)) := by
  have hh := history h h1
  rw [pass_eq h1] at hp
  by_cases hc : o1.cur = .run
  · have key : ∀ e e2, (o1.pause c.sc e e2).cur ≠ .run := by
      intro e e2
      rw [(pause_run hh hc e e2).1]
      split <;> decide
    unfold supervise at hp
    -- the part after the check of the devices, when it did not pause
    have rest : ∀ z : Option (Op × List Msg), z = some (o', msgs) →
        z = (let b := if allZero c w.param then (o1.pause c.sc w.p2.1 w.p2.2, [Msg.params]) else (o1, [])
          if c.hasMax then
            (checkMaxStepTime (c.sc .run).steps (b.1.st .run).main w.maxOf w.elapsed (b.1.st .run).extra).map fun
              | some e => (b.1.pause c.sc w.p3.1 w.p3.2, b.2 ++ [Msg.time e])
              | none => b
          else some b) →
        (msgs = [] ∧ o' = o1) ∨
          (o1.cur = .run ∧ (∃ m, msgs = [m]) ∧ o'.cur = (if (c.sc .pausing).empty then .pause else .pausing) ∧
            Quiet (o'.st .run)) := by
      intro z hz hz2
      rw [hz] at hz2
      cases hzero : allZero c w.param with
      | true =>
        obtain ⟨hp2, hq2⟩ := pause_run hh hc w.p2.1 w.p2.2
        simp only [hzero, if_true, hq2.main, hq2.extra] at hz2
        have : some (o', msgs) = some (o1.pause c.sc w.p2.1 w.p2.2, [Msg.params]) := by
          rw [hz2]; split <;> rfl
        cases this
        exact .inr ⟨hc, ⟨_, rfl⟩, hp2, hq2⟩
      | false =>
        simp only [hzero, Bool.false_eq_true, if_false] at hz2
        split at hz2
        · cases ht : checkMaxStepTime (c.sc .run).steps (o1.st .run).main w.maxOf w.elapsed (o1.st .run).extra with
          | none => rw [ht] at hz2; cases hz2
          | some t =>
            rw [ht] at hz2
            cases t with
            | none => cases hz2; exact .inl ⟨rfl, rfl⟩
            | some e =>
              cases hz2
              obtain ⟨hp3, hq3⟩ := pause_run hh hc w.p3.1 w.p3.2
              exact .inr ⟨hc, ⟨_, rfl⟩, hp3, hq3⟩
        · cases hz2
          exact .inl ⟨rfl, rfl⟩
    cases hfl : faults c w.dev (o1.st .run) with
    | none =>
      rw [hfl] at hp
      simp only [hc, if_true, List.nil_append] at hp
      exact rest _ hp rfl
    | some f =>
      rw [hfl] at hp
      by_cases hx : w.autoPause = 0 ∧ o1.cur = .run ∧ checkOn w.checkMode = true
      · simp only [hx, and_self, if_true, if_neg (key w.p1.1 w.p1.2)] at hp
        cases hp
        obtain ⟨hp1, hq1⟩ := pause_run hh hc w.p1.1 w.p1.2
        exact .inr ⟨hc, ⟨_, rfl⟩, hp1, hq1⟩
      · simp only [if_neg hx] at hp
        simp only [hc, if_true, List.nil_append] at hp
        exact rest _ hp rfl
  · left
    unfold supervise at hp
    cases hfl : faults c w.dev (o1.st .run) <;> simp only [hfl, hc, false_and, and_false, if_false, Option.some.injEq, Prod.mk.injEq] at hp
    · exact ⟨hp.2.symm, hp.1.symm⟩
    · exact ⟨hp.2.symm, hp.1.symm⟩

/-- C147 (part).  When pausing on faults is switched off, for the controller or for the operation, the states of the devices do not
matter. -/
theorem C147_switched_off_partial (c : Cfg) (w : World) (o : Op) (v : Nat → Dev)
    (hk : w.autoPause ≠ 0 ∨ (0 ≤ w.checkMode ∧ w.checkMode ≠ 1)) : pass c { w with dev := v } o = pass c w o := by
  have hn : ¬ (w.autoPause = 0 ∧ checkOn w.checkMode = true) := by
    rw [checkOn_iff]
    omega
  have hn' : ∀ p : Prop, ¬ (w.autoPause = 0 ∧ p ∧ checkOn w.checkMode = true) := fun p hh => hn ⟨hh.1, hh.2.2⟩
  unfold pass
  congr 1
  funext o1
  unfold supervise
  dsimp only
  cases faults c v (o1.st .run) <;> cases faults c w.dev (o1.st .run) <;> simp only [hn', if_false]

/-- Two steps; the first one uses device 1, the second one device 2, the operation itself device 0 and the seats of device 3. -/
def demo : Cfg where
  sc := fun s => match s with
    | .run => { steps := 2 }
    | _ => { steps := 0, empty := true }
  mode := [.plain [[[0]]], .seats [[3]] []]
  steps := fun k => [.plain [[[k + 1]]]]
  durations := []
  hasMax := true

/-- A pass in which exactly the given devices have failed. -/
def demoWorld (bad : List Nat) : World where
  eval := {}
  inner := []
  dev := fun d => { state := if d ∈ bad then -1 else 1, suppressed := false }
  autoPause := 0
  checkMode := 1
  param := fun _ => .num 0
  maxOf := fun _ => 0
  elapsed := fun _ => 0
  p1 := ({}, {})
  p2 := ({}, {})
  p3 := ({}, {})

/-- The example running, with the extra step 2. -/
def demoOp : Op := ((Op.fresh demo.sc).runEv demo.sc [.start {} {} 1, .onExtra {} 2]).getD (Op.fresh demo.sc)

theorem demo_run : (Op.fresh demo.sc).runEv demo.sc [.start {} {} 1, .onExtra {} 2] = some demoOp := rfl

theorem demo_eval (bad : List Nat) :
    (demoOp.evalCur demo.sc (demoWorld bad).eval).runEv demo.sc (demoWorld bad).inner = some (demoOp.evalCur demo.sc {}) := rfl

example : (demoOp.evalCur demo.sc {}).cur = .run ∧ ∃ d, FaultyPlain (demoWorld [1]).dev (mainActs demo ((demoOp.evalCur demo.sc {}).st .run)) d :=
  ⟨rfl, 1, ⟨by decide, rfl⟩, .plain [[[1]]], by decide +kernel, trivial, [[1]], by simp, [1], by simp, by simp⟩

example : ((pass demo (demoWorld [1]) demoOp).map fun x => (x.1.cur, x.2)) = some (.pause, [.devices [1]]) := by decide +kernel

example : ((pass demo { demoWorld [] with maxOf := fun _ => 5, elapsed := fun _ => 5000 } demoOp).map fun x => (x.1.cur, x.2.length)) =
    some (.pause, 1) := by decide +kernel

example : NoDuration { demo with durations := [3, 4] } (demoWorld []).param := by
  refine ⟨by decide, fun n hn => ⟨?_, ?_⟩⟩
  · simp at hn; omega
  · intro q hq; cases hq; exact le_refl 0

example : (demoWorld [1]).autoPause = 0 ∧ ({ demoWorld [1] with autoPause := 1 } : World).autoPause ≠ 0 := ⟨rfl, by decide⟩

/-- C147 does not hold for the devices of an extra step: device 2 of the active extra step 2 has failed, and the operation runs
on without a message (operation_mngr.cpp lines 2297-2321 look at the operation and at its main step only). -/
theorem C147_extra_violated :
    ∃ (c : Cfg) (w : World) (es : List Ev) (o o1 : Op) (d : Nat), (Op.fresh c.sc).runEv c.sc es = some o ∧
      (o.evalCur c.sc w.eval).runEv c.sc w.inner = some o1 ∧ o1.cur = .run ∧ w.autoPause = 0 ∧ w.checkMode = 1 ∧
      Faulty w.dev (extraActs c (o1.st .run)) d ∧ pass c w o = some (o1, []) := by
  refine ⟨demo, demoWorld [2], _, demoOp, demoOp.evalCur demo.sc {}, 2, demo_run, demo_eval [2], rfl, rfl, rfl, ?_, ?_⟩
  · exact ⟨⟨by decide, rfl⟩, .plain [[[2]]], by decide +kernel, [[2]], by simp, [2], by simp, by simp⟩
  · refine C147_only_partial demo (demoWorld [2]) _ demoOp _ demo_run (demo_eval [2]) fun _ => ⟨fun d hd => ?_, ?_, fun _ => by decide +kernel⟩
    · have := (faults_none (c := demo) (w := (demoWorld [2]).dev) (r := (demoOp.evalCur demo.sc {}).st .run)
        (main_lt (history (w := demoWorld [2]) demo_run (demo_eval [2])))).mp (by decide +kernel) d
      exact this hd
    · exact fun hz => hz.1 rfl

/-- Nor for the devices whose seats an action opens: they are not in the list that is checked. -/
theorem C147_seats_violated :
    ∃ (c : Cfg) (w : World) (es : List Ev) (o o1 : Op) (d : Nat), (Op.fresh c.sc).runEv c.sc es = some o ∧
      (o.evalCur c.sc w.eval).runEv c.sc w.inner = some o1 ∧ o1.cur = .run ∧ w.autoPause = 0 ∧ w.checkMode = 1 ∧
      Faulty w.dev (mainActs c (o1.st .run)) d ∧ pass c w o = some (o1, []) := by
  refine ⟨demo, demoWorld [3], _, demoOp, demoOp.evalCur demo.sc {}, 3, demo_run, demo_eval [3], rfl, rfl, rfl, ?_, ?_⟩
  · exact ⟨⟨by decide, rfl⟩, .seats [[3]] [], by decide +kernel, .inl ⟨[3], by simp, by simp⟩⟩
  · refine C147_only_partial demo (demoWorld [3]) _ demoOp _ demo_run (demo_eval [3]) fun _ => ⟨fun d hd => ?_, ?_, fun _ => by decide +kernel⟩
    · have := (faults_none (c := demo) (w := (demoWorld [3]).dev) (r := (demoOp.evalCur demo.sc {}).st .run)
        (main_lt (history (w := demoWorld [3]) demo_run (demo_eval [3])))).mp (by decide +kernel) d
      exact this hd
    · exact fun hz => hz.1 rfl

/-! ## C148 -/

/-- C148.  After any history that ends with the operation idle, switching it on is refused because of devices exactly when
a device of the operation itself has failed (and the check is on).  (The devices of its first step do not count, see
`C148_first_step_violated`.) -/
theorem C148_refused_partial (c : Cfg) (w : Nat → Dev) (checkMode : Int) (es : List Ev) (o : Op)
    (h : (Op.fresh c.sc).runEv c.sc es = some o) (hi : o.cur = .idle) :
    refused c w checkMode o ≠ none ↔ (checkMode < 0 ∨ checkMode = 1) ∧ ∃ d, FaultyPlain w c.mode d := by
  have hq : Quiet (o.st .run) :=
    Operation.C16_only_current_active_partial c.sc es o h .run (by rw [hi]; decide) (.inl (by decide))
  have hm : mainActs c (o.st .run) = c.mode := by
    unfold mainActs
    rw [hq.main, List.append_nil]
  have hn := faults_none (c := c) (w := w) (main_lt h)
  rw [hm] at hn
  unfold refused
  rw [← checkOn_iff]
  cases hf : faults c w (o.st .run) with
  | none =>
    have := hn.mp hf
    simp only [ne_eq, not_true_eq_false, false_iff, not_and, not_exists]
    exact fun _ => this
  | some f =>
    have hex : ∃ d, FaultyPlain w c.mode d := by
      by_contra hx
      rw [hn.mpr (fun d hd => hx ⟨d, hd⟩)] at hf
      cases hf
    cases checkOn checkMode <;> simp [hex]

example : (Op.fresh demo.sc).cur = .idle ∧ refused demo (demoWorld [0]).dev 1 (Op.fresh demo.sc) = some [0] :=
  ⟨rfl, by decide +kernel⟩

/-- C148 does not hold for the first step: whatever its devices report, an idle operation (without the state `STARTING`) whose own
devices are in order is not refused, and starting it initialises the first step, that is, drives those devices. -/
theorem C148_first_step_violated (c : Cfg) (w : Nat → Dev) (checkMode : Int) (es : List Ev) (o : Op)
    (h : (Op.fresh c.sc).runEv c.sc es = some o) (hi : o.cur = .idle) (hs : (c.sc .starting).empty = true)
    (hn : 0 < (c.sc .run).steps) (hm : ∀ d, ¬ FaultyPlain w c.mode d) (e e2 : Env) (k : Int) (hz : e.zeroDur 0 = false)
    (d : Nat) (hd : FaultyPlain w (c.steps 0) d) :
    refused c w checkMode o = none ∧ (o.start c.sc e e2 k).cur = .run ∧
      FaultyPlain w (mainActs c ((o.start c.sc e e2 k).st .run)) d ∧ inUse ((o.start c.sc e e2 k).st .run).log (some 0) = true := by
  have hq : Quiet (o.st .run) :=
    Operation.C16_only_current_active_partial c.sc es o h .run (by rw [hi]; decide) (.inl (by decide))
  refine ⟨?_, ?_⟩
  · by_contra hx
    obtain ⟨_, d, hd⟩ := (C148_refused_partial c w checkMode es o h hi).mp hx
    exact hm d hd
  · have hstart : o.start c.sc e e2 k = (o.fin .idle).enter c.sc e .run 1 := by
      unfold Op.start
      rw [hi]
      simp [hs]
    have hst : (o.fin .idle).st .run = o.st .run := by simp [Op.fin, Op.upd]
    have hr : (o.start c.sc e e2 k).st .run = (o.st .run).init (c.sc .run) e 1 := by
      rw [hstart]
      simp [Op.enter, Op.upd, hst]
    have hinit : (o.st .run).init (c.sc .run) e 1 =
        (((({ (o.st .run) with mode := true, log := (o.st .run).log ++ [.init none], main := some 0, nextN := (c.sc .run).next 0 } : OpState)).initStep 0).evalStep 0) := by
      unfold OpState.init
      simp only [if_neg (by omega : ¬ (c.sc .run).steps = 0)]
      have ht : OpState.toStep (c.sc .run) e 1 { (o.st .run) with mode := true, log := (o.st .run).log ++ [.init none], main := none } =
          (((({ (o.st .run) with mode := true, log := (o.st .run).log ++ [.init none], main := some 0, nextN := (c.sc .run).next 0 } : OpState)).initStep 0).evalStep 0) := by
        unfold OpState.toStep
        rw [if_neg (by omega)]
        simp [hz, OpState.finMain]
      rw [ht]
      have he : (((({ (o.st .run) with mode := true, log := (o.st .run).log ++ [.init none], main := some 0, nextN := (c.sc .run).next 0 } : OpState)).initStep 0).evalStep 0).extra = [] := hq.extra
      rw [he]
      rfl
    rw [hr, hinit]
    refine ⟨by rw [hstart]; rfl, faultyPlain_append.mpr (.inr hd), ?_⟩
    simp [inUse, OpState.evalStep, OpState.initStep, List.foldl_append]

example : (Op.fresh demo.sc).runEv demo.sc [] = some (Op.fresh demo.sc) ∧ (demo.sc .starting).empty = true ∧
    0 < (demo.sc .run).steps ∧ faults demo (demoWorld [1]).dev ((Op.fresh demo.sc).st .run) = none ∧
    ((pass demo (demoWorld [1]) ((Op.fresh demo.sc).start demo.sc {} {} 1)).map fun x => (x.1.cur, x.2)) =
      some (.pause, [.devices [1]]) :=
  ⟨rfl, rfl, by decide, by decide +kernel, by decide +kernel⟩

/-! ## C149 -/

/-- The operation is new, or in its last evaluation there was no request. -/
def NoRequest (a : Auto) : Prop := a = {} ∨ ∃ a0 x, x.signal = false ∧ a = (Auto.step a0 x).1

theorem NoRequest.flags {a : Auto} (h : NoRequest a) : a.first = true ∧ a.fail = false := by
  rcases h with rfl | ⟨a0, x, hx, rfl⟩
  · exact ⟨rfl, rfl⟩
  · unfold Auto.step
    rw [if_pos hx]
    exact ⟨rfl, rfl⟩

/-- C149.  While a request for switching on stays, the operation is tried in every evaluation, and switched on in the first one
in which that is possible; this is given up in the first repeated attempt made later than the configured time after the first one, and
then nothing at all happens however long the request stays. -/
theorem C149_request (a : Auto) (W : Nat) (l : List Idle) (ha : NoRequest a) (hr : Request W l) (j : Nat) (i : Idle)
    (hj : l[j]? = some i) (hb : ∀ (m : Nat) (k : Idle), m < j → l[m]? = some k → k.can = false ∨ GivenUp W l m) :
    ∃ out, (a.run l).2[j]? = some out ∧ (GivenUp W l j → out = []) ∧
      (¬ GivenUp W l j → Out.tried i.can ∈ out ∧ (Out.switchedOn ∈ out ↔ i.can = true) ∧
        (Out.gaveUp ∈ out ↔ i.can = false ∧ ∃ i0, l[0]? = some i0 ∧ 0 < j ∧ W < i.now.toNat - i0.now.toNat)) := by
  obtain ⟨hfirst, hfail⟩ := ha.flags
  cases l with
  | nil => simp at hj
  | cons x l =>
    have hxs := hr.signal x List.mem_cons_self
    cases j with
    | zero =>
      have hix : x = i := by simpa using hj
      subst hix
      have hout : (a.run (x :: l)).2[0]? = some (a.step x).2 := by
        simp only [Auto.run]
        split <;> rfl
      refine ⟨_, hout, ?_, fun _ => ?_⟩
      · rintro ⟨i0, m, k, _, hm, hm2, _⟩
        omega
      · unfold Auto.step
        cases hc : x.can <;> simp [hxs, hfail, hfirst]
    | succ j =>
      have hxc : x.can = false := by
        rcases hb 0 x (by omega) rfl with h | ⟨_, m, _, _, _, hm, _⟩
        · exact h
        · omega
      have hstep : a.step x = ({ a with warn := x.now, wait := x.now, first := false }, [.tried false, .refused]) := by
        unfold Auto.step
        simp [hxs, hfail, hfirst, hxc]
      have hrun : (a.run (x :: l)).2[j + 1]? =
          ((Auto.run { a with warn := x.now, wait := x.now, first := false } l).2[j]?) := by
        simp [Auto.run, hstep]
      have hg : ∀ m, (∃ (m' : Nat) (k : Idle), m' < m ∧ l[m']? = some k ∧ W < k.now.toNat - x.now.toNat) ↔
          GivenUp W (x :: l) (m + 1) := by
        intro m
        constructor
        · rintro ⟨m', k, hm, hk, hl⟩
          exact ⟨x, m' + 1, k, rfl, by omega, by omega, by simpa using hk, hl⟩
        · rintro ⟨i0, m', k, h0, hm0, hm, hk, hl⟩
          have : x = i0 := by simpa using h0
          subst this
          cases m' with
          | zero => omega
          | succ m' => exact ⟨m', k, by omega, by simpa using hk, hl⟩
      obtain ⟨out, ho, ho1, ho2⟩ := run_waiting (t0 := x.now) (W := W) l
        { a with warn := x.now, wait := x.now, first := false } ⟨rfl, rfl⟩
        (fun i hi => hr.signal i (List.mem_cons_of_mem _ hi)) (fun i hi => hr.setting i (List.mem_cons_of_mem _ hi))
        (fun i hi => (List.pairwise_cons.mp hr.clock).1 i hi) j i (by simpa using hj) (by
          intro m k hm hk
          rcases hb (m + 1) k (by omega) (by simpa using hk) with h | h
          · exact .inl h
          · exact .inr (.inr ((hg m).mpr h)))
      simp only [hfail, Bool.false_eq_true, false_or, hg] at ho1 ho2
      refine ⟨out, by rw [hrun]; exact ho, ho1, fun hn => ?_⟩
      obtain ⟨h1, h2, h3⟩ := ho2 hn
      refine ⟨h1, h2, ?_⟩
      rw [h3]
      simp

/-- C149 (part).  Refusals of one request are reported in the first evaluation, and then no sooner than the configured time after the
last report. -/
theorem C149_reports (a : Auto) (W : Nat) (l : List Idle) (ha : NoRequest a) (hr : Request W l) (n j : Nat) (x i : Idle)
    (o out : List Out) (hx : l[n]? = some x) (hn : (a.run l).2[n]? = some o) (hno : Out.refused ∈ o)
    (hnj : n < j) (hj : l[j]? = some i) (ho : (a.run l).2[j]? = some out) (hout : Out.refused ∈ out)
    (hb : ∀ (m : Nat) (o : List Out), n < m → m < j → (a.run l).2[m]? = some o → Out.refused ∉ o) :
    i.warnTime.toNat < i.now.toNat - x.now.toNat := by
  clear ha
  induction l generalizing a n j with
  | nil => simp at hx
  | cons y l ih =>
    have hys := hr.signal y List.mem_cons_self
    have hr' : Request W l := ⟨fun i hi => hr.signal i (List.mem_cons_of_mem _ hi), (List.pairwise_cons.mp hr.clock).2,
      fun i hi => hr.setting i (List.mem_cons_of_mem _ hi)⟩
    have hsw : Out.switchedOn ∉ (a.step y).2 := by
      intro hc
      cases j with
      | zero => omega
      | succ j => simp [Auto.run, hc] at ho
    have hrun : ∀ m, (a.run (y :: l)).2[m + 1]? = ((a.step y).1.run l).2[m]? := by
      intro m
      simp only [Auto.run, if_neg hsw, List.getElem?_cons_succ]
    obtain ⟨j, rfl⟩ : ∃ k, j = k + 1 := ⟨j - 1, by omega⟩
    cases n with
    | zero =>
      have hyx : y = x := by simpa using hx
      subst hyx
      have hout0 : (a.run (y :: l)).2[0]? = some (a.step y).2 := by
        simp only [Auto.run]
        split <;> rfl
      rw [hout0] at hn
      cases hn
      have hst : (a.step y).1.first = false ∧ (a.step y).1.warn = y.now := by
        revert hno
        unfold Auto.step
        simp only [hys, Bool.true_eq_false, if_false]
        split
        · simp
        · split
          · split <;> simp
          · split
            · simp
            · rename_i h1 h2
              have hf : a.first = false := by simpa using h1
              by_cases hw : y.warnTime.zeroExtend 64 < Time.deltaMs y.now a.warn
              · simp only [hw, if_true]
                split <;> simp [hf]
              · simp only [hw, if_false]
                split <;> simp
      rw [← hst.2]
      refine run_refused l (a.step y).1 hst.1 hr'.signal (fun i hi => ?_) j i out (by simpa using hj)
        (by rw [← hrun]; exact ho) hout (fun m o hm h => hb (m + 1) o (by omega) (by omega) (by rw [hrun]; exact h))
      rw [hst.2]
      exact (List.pairwise_cons.mp hr.clock).1 i hi
    | succ n =>
      exact ih (a.step y).1 hr' n j (by simpa using hx) (by rw [← hrun]; exact hn) (by omega) (by simpa using hj)
        (by rw [← hrun]; exact ho) (fun m o h1 h2 h => hb (m + 1) o (by omega) (by omega) (by rw [hrun]; exact h))

/-- Attempts at 0, 10, 25, 35 and 40 s; warnings every 20 s, given up after 30 s. -/
def demoRequest : List Idle :=
  [0, 10000, 25000, 35000, 40000].map fun t => { signal := true, can := false, now := t, warnTime := 20000, waitTime := 30000 }

example : Request 30000 demoRequest ∧ NoRequest {} ∧ (Auto.run {} demoRequest).2 =
    [[.tried false, .refused], [.tried false], [.tried false, .refused], [.tried false, .gaveUp], []] := by
  refine ⟨⟨by decide, ?_, by decide⟩, .inl rfl, by decide +kernel⟩
  unfold demoRequest
  decide +kernel

/-! ## C150 -/

/-- C150.  After any sequence of calls each group and subgroup of an action has exactly the devices given to it, in the order of the calls,
whatever the order of the numbers of the groups. -/
theorem C150_groups (sub : Nat) (l : List (Nat × Nat × Nat)) (g s : Nat) :
    group (l.foldl (fun g x => addDev sub g x.1 x.2.1 x.2.2) (emptyGroups sub)) g s = given l g s := by
  rw [group_adds, group_empty, List.nil_append]

example : (([(7, 2, 0), (8, 0, 1), (9, 2, 0)] : List (Nat × Nat × Nat)).foldl (fun g x => addDev 2 g x.1 x.2.1 x.2.2) (emptyGroups 2)) =
    [[[], [8]], [[], []], [[7, 9], []]] ∧ given [(7, 2, 0), (8, 0, 1), (9, 2, 0)] 2 0 = [7, 9] := by decide

/-- C150 (part).  The same for the groups of seats, when the groups are given in turn. -/
theorem C150_seats_partial (l : List (Nat × Nat)) (j : Nat) (h : InTurn 0 l) :
    (l.foldl (fun g x => addSeat g x.1 x.2) []).getD j [] = (l.filter fun x => decide (x.2 = j)).map fun x => x.1 := by
  rw [seats_adds l j [] h]
  simp

example : InTurn 0 [(7, 0), (8, 0), (9, 1), (5, 0)] := by simp [InTurn]

/-- C150 does not hold for the groups of seats in general: a device given to a group after the next one is dropped. -/
theorem C150_seats_violated (l : List (List Nat)) (dev g : Nat) (h : l.length < g) :
    addSeat l dev g = l ++ [[]] ∧ ∀ j, (addSeat l dev g).getD j [] = l.getD j [] := by
  have h1 : addSeat l dev g = l ++ [[]] := by
    unfold addSeat
    simp only [if_pos (by omega : l.length ≤ g)]
    rw [if_pos (by simp; omega)]
  refine ⟨h1, fun j => ?_⟩
  rw [h1]
  simp only [List.getD_eq_getElem?_getD]
  by_cases h2 : j < l.length
  · rw [List.getElem?_append_left h2]
  · rw [List.getElem?_append_right (by omega), List.getElem?_eq_none (l := l) (by omega)]
    cases j - l.length <;> simp

example : addSeat [] 7 1 = [[]] ∧ [([] : List Nat)].getD 1 [] = [] := by decide

end Ptusa.Guard
