import Verif.Cip.Stop
import Verif.Cip.Props

/-!
# Stopping a washing line switches its devices off (C88)
-/
namespace Ptusa.Cip

variable {n : Nat}

/-- The line is paused, locked, in error or idle: its pumps and valves are off.  Only after the errors −19 and −20 (signals
of the washed object; −30 when it cannot be set up after them) the valves V07 to V12 may stay on, so that the way back
stays open. -/
theorem C88_stopped_partial (c : Cfg) (vals : Fin n → Nat → Nat → Rat) (outs : Nat → Bool) (es : List (Ev n)) (i : Fin n)
    (h1 : Along c NoUnlock (initial vals outs) es) (h2 : Along c (Without i [cmdRetOn]) (initial vals outs) es) (s : Sys n)
    (hs : c.run (initial vals outs) es = some s) (hi : (s.line i).state ≤ 0) :
    (s.line i).dev.pump = false ∧ (s.line i).dev.ret = false ∧ (s.line i).dev.ns = false ∧ (s.line i).dev.nk = false ∧
      (∀ k, (k < 7 ∨ 12 < k) → (s.line i).dev.v k = false) ∧
      ((s.line i).state ∉ [-19, -20, -30] → (s.line i).Stopped) := by
  have h := quiet_run c vals outs es i h1 h2 s hs
  have a1 := h.safe.devs.pump hi
  have a2 := h.ret.ret hi
  have a3 : (s.line i).dev.ns = false := by
    by_contra z; have := (h.safe.devs.ns (by simpa using z)).2; omega
  have a4 : (s.line i).dev.nk = false := by
    by_contra z; have := (h.safe.devs.nk (by simpa using z)).2; omega
  refine ⟨a1, a2, a3, a4, fun k hk => ?_, fun hn => ⟨a1, a2, fun k => ?_, a3, a4⟩⟩
  · by_contra z
    have := (h.safe.devs.v hi k (by simpa using z)).1
    omega
  · by_contra z
    have := (h.safe.devs.v hi k (by simpa using z)).2
    simp only [errWrongOs] at this
    simp only [List.mem_cons, List.not_mem_nil, or_false] at hn
    exact hn this

/-- A line that washed with its pump on and is in error. -/
example :
    let es := exStart 0 0 1 ++ [.cycle 0 { out := .done 1, pump := true }, .cycle 0 { pump := true, valves := fun _ => true },
      .cycle 0 { out := .fail .noFlow, pump := true, valves := fun _ => true }]
    Along exCfg NoUnlock exInit es ∧ Along exCfg (Without 0 [cmdRetOn]) exInit es ∧
      ∃ s, exCfg.run exInit es = some s ∧ (s.line 0).state = -17 ∧ (s.line 0).curstep = 83 :=
  ⟨by decide +kernel, by decide +kernel, run_ex _ _ _ _ (by decide +kernel)⟩

/-- PAUSE stops a washing line in the next cycle. -/
theorem C88_pause_partial (c : Cfg) (vals : Fin n → Nat → Nat → Rat) (outs : Nat → Bool) (es : List (Ev n)) (i : Fin n)
    (h1 : Along c NoUnlock (initial vals outs) es) (s : Sys n) (hs : c.run (initial vals outs) es = some s)
    (hi : (s.line i).Washing) (hc : (s.line i).ncmd = cmdPause) (e : Env) :
    ∃ s', c.step s (.cycle i e) = some s' ∧ (s'.line i).state = -1 ∧ (s'.line i).curstep = (s.line i).curstep ∧
      (s'.line i).Stopped := by
  have h := safe_run c vals outs es h1 s hs i
  have hb : (s.line i).blocked = false := by
    by_contra z
    have := h.wf.lock.1 (by simpa using z)
    have h0 := hi.1
    rw [this] at h0
    exact absurd h0 (by decide)
  have hbl : (s.line i).block = s.line i := by
    rcases block_cases (s.line i) with ⟨x, -⟩ | ⟨x, -⟩ | ⟨-, -, -, -, -, -, -, -, -, -, x⟩
    · exact x
    · rw [hc] at x; exact absurd x (by decide)
    · rcases x with x | x
      · rw [hb] at x; cases x
      · rw [hc] at x; exact absurd x (by decide)
  have hput : s.put i (s.line i) = s := by simp [Sys.put]
  have hne : (s.line i).ncmd ≠ 0 := by rw [hc]; decide
  have n1 : ¬ (s.line i).ncmd = cmdNext := by rw [hc]; decide
  obtain ⟨d1, d2, d3, d4, d5⟩ := stop_dev _ h.devs
  refine ⟨s.put i { (s.line i).stop with state := -1, ncmd := 0 }, ?_, by simp, by simp, ?_⟩
  · simp only [Cfg.step, Cfg.evaluate, hbl, hput, if_neg (show ¬ (s.line i).blocked = true by simp [hb]), if_pos hne,
      Cfg.commands, if_neg n1, if_pos hc]
    rw [if_pos ⟨hi.1, hi.2⟩]
    simp
  · rw [put_self]
    refine ⟨d3, d4, fun k => ?_, d1, d2⟩
    by_contra z
    have := d5 k (by simpa using z)
    have := hi.1
    omega

example :
    let es := exStart 0 0 1 ++ [.cycle 0 { out := .done 1, pump := true }, .cmd 0 cmdPause]
    Along exCfg NoUnlock exInit es ∧ ∃ s, exCfg.run exInit es = some s ∧ (s.line 0).Washing ∧
      (s.line 0).ncmd = cmdPause ∧ (s.line 0).dev.pump = true :=
  ⟨by decide +kernel, run_ex _ _ _ _ (by decide +kernel)⟩

/-- LOCK stops any line in the next cycle, and it stays so as long as it is locked: no command but UNLOCK has an effect on
it. -/
theorem C88_lock_partial (c : Cfg) (vals : Fin n → Nat → Nat → Rat) (outs : Nat → Bool) (es : List (Ev n)) (i : Fin n)
    (h1 : Along c NoUnlock (initial vals outs) es) (s : Sys n) (hs : c.run (initial vals outs) es = some s)
    (hi : (s.line i).ncmd = cmdLock ∨ (s.line i).state = lockedState ∧ (s.line i).ncmd ≠ cmdUnlock) (e : Env) :
    ∃ s', c.step s (.cycle i e) = some s' ∧ (s'.line i).state = lockedState ∧ (s'.line i).Stopped ∧ s'.outs = s.outs := by
  have h := safe_run c vals outs es h1 s hs i
  have hb : (s.line i).block.blocked = true ∧ (s.line i).block.state = lockedState := by
    rcases block_cases (s.line i) with ⟨-, x, y, -⟩ | ⟨x, -⟩ | ⟨x, y, -⟩
    · rcases hi with z | ⟨z, -⟩
      · exact absurd z y
      · rw [h.wf.lock.2 z] at x; cases x
    · rcases hi with z | ⟨-, z⟩
      · rw [x] at z; exact absurd z (by decide)
      · exact absurd x z
    · exact ⟨x, y⟩
  refine ⟨s.put i (s.line i).block, ?_, by rw [put_self]; exact hb.2, by rw [put_self]; exact lock_dev h.devs hb.1, rfl⟩
  simp only [Cfg.step, Cfg.evaluate, if_pos hb.1]

example :
    let es := exStart 0 0 512 ++ [.cycle 0 { out := .done 1, pump := true }, .cycle 0 { out := .done 1 },
      .cycle 0 { out := .done 1 }, .cycle 0 { out := .done 2, pump := true }, .cmd 0 cmdLock]
    Along exCfg NoUnlock exInit es ∧ ∃ s, exCfg.run exInit es = some s ∧ (s.line 0).ncmd = cmdLock ∧
      (s.line 0).dev.pump = true ∧ (s.line 0).dev.ns = true :=
  ⟨by decide +kernel, run_ex _ _ _ _ (by decide +kernel)⟩

/-- A line that was stopped stays so, with its devices off, until one of the commands NEXT, EVALUATE, RESET, UNLOCK (or the
order to switch on the return pump) is given to it, whatever the other lines and the sensors do. -/
theorem C88_stays_partial (c : Cfg) (vals : Fin n → Nat → Nat → Rat) (outs : Nat → Bool) (es fs : List (Ev n)) (i : Fin n)
    (h1 : Along c NoUnlock (initial vals outs) (es ++ fs))
    (h2 : Along c (Without i [cmdRetOn]) (initial vals outs) (es ++ fs)) (s s' : Sys n)
    (hs : c.run (initial vals outs) es = some s) (hi : (s.line i).state < 0) (hi' : (s.line i).state ∉ [-19, -20, -30])
    (hn : (s.line i).ncmd ∉ [cmdNext, cmdEvaluate, cmdReset, cmdUnlock])
    (h3 : Along c (Without i [cmdNext, cmdEvaluate, cmdReset, cmdUnlock]) s fs) (hs' : c.run s fs = some s') :
    (s'.line i).state < 0 ∧ (s'.line i).Stopped := by
  simp only [List.mem_cons, List.not_mem_nil, or_false, not_or] at hi'
  have hH : Halted (s.line i).state (s'.line i) := run_inv c _ (fun t => Halted (s.line i).state (t.line i))
    (fun _ _ _ hp hq ht => hq.step hp ht) fs _ _ h3 ⟨hi, ⟨hi'.1, hi'.2.1⟩, Or.inl rfl, hn⟩ hs'
  have hrun : c.run (initial vals outs) (es ++ fs) = some s' := by rw [run_append, hs]; exact hs'
  have hneg : (s'.line i).state < 0 := by
    rcases hH.state with x | x <;> rw [x]
    · exact hi
    · decide
  refine ⟨hneg, (C88_stopped_partial c vals outs (es ++ fs) i h1 h2 s' hrun (by omega)).2.2.2.2.2 ?_⟩
  rcases hH.state with x | x <;> rw [x]
  · simp only [List.mem_cons, List.not_mem_nil, or_false, not_or]; exact hi'
  · decide

example :
    let es := exStart 0 0 1 ++ [.cycle 0 { out := .done 1, pump := true }, .cmd 0 cmdPause, .cycle 0 {}]
    let fs : List (Ev 2) := exStart 1 1 1 ++ [.cycle 0 { out := .done 1, pump := true }, .cmd 0 cmdLock, .cycle 0 { pump := true }]
    Along exCfg NoUnlock exInit (es ++ fs) ∧ Along exCfg (Without 0 [cmdRetOn]) exInit (es ++ fs) ∧
      ∃ s, exCfg.run exInit es = some s ∧ (s.line 0).state = -1 ∧ (s.line 0).ncmd = 0 ∧
        Along exCfg (Without 0 [cmdNext, cmdEvaluate, cmdReset, cmdUnlock]) s fs ∧ (exCfg.run s fs).isSome = true :=
  ⟨by decide +kernel, by decide +kernel, run_ex _ _ _ _ (by decide +kernel)⟩

/-- RESET ends the wash of any line that is not idle or locked: everything but the valve V11 is off, and after the delay V11
too. -/
theorem C88_reset_partial (c : Cfg) (vals : Fin n → Nat → Nat → Rat) (outs : Nat → Bool) (es : List (Ev n)) (i : Fin n)
    (h1 : Along c NoUnlock (initial vals outs) es) (s : Sys n) (hs : c.run (initial vals outs) es = some s)
    (hi : (s.line i).state ≠ 0) (hl : (s.line i).state ≠ lockedState) (hc : (s.line i).ncmd = cmdReset) (e : Env) :
    ∃ s1, c.step s (.cycle i e) = some s1 ∧ (s1.line i).Draining ∧ (s1.line i).curstep = 555 ∧
      ∀ (e' : Env) (s2 : Sys n), c.step s1 (.cycle i e') = some s2 →
        (e'.endNow = false → s2 = s1) ∧ (e'.endNow = true → (s2.line i).Stopped ∧ (s2.line i).state = 0) := by
  have h := safe_run c vals outs es h1 s hs i
  have hb : (s.line i).blocked = false := by
    by_contra z
    exact hl (h.wf.lock.1 (by simpa using z))
  have hbl : (s.line i).block = s.line i := by
    rcases block_cases (s.line i) with ⟨x, -⟩ | ⟨x, -⟩ | ⟨-, -, -, -, -, -, -, -, -, -, x⟩
    · exact x
    · rw [hc] at x; exact absurd x (by decide)
    · rcases x with x | x
      · rw [hb] at x; cases x
      · rw [hc] at x; exact absurd x (by decide)
  have hput : ∀ s : Sys n, s.put i (s.line i) = s := fun s => by simp [Sys.put]
  have hne : (s.line i).ncmd ≠ 0 := by rw [hc]; decide
  have n1 : ¬ (s.line i).ncmd = cmdNext := by rw [hc]; decide
  have n2 : ¬ (s.line i).ncmd = cmdPause := by rw [hc]; decide
  obtain ⟨d1, d2, d3, d4, d5⟩ := stop_dev _ h.devs
  have he := initStep_end { (s.line i).stop with curstep := 555 } e rfl (by simp) (by simp)
  obtain ⟨l1, hl1⟩ : ∃ l1 : Line, l1 = { ({ (s.line i).stop with curstep := 555 } : Line).initStep e with
    state := 1, ncmd := 0 } := ⟨_, rfl⟩
  have f1 : l1.dev = ⟨false, false, fun k => decide (k = 11), false, false⟩ := by
    rw [hl1]
    simp only
    rw [he]
    simp only
    rw [d1, d2]
  have f2 : l1.state = 1 := by rw [hl1]
  have f3 : l1.curstep = 555 := by rw [hl1]; simp
  have f4 : l1.ncmd = 0 := by rw [hl1]
  have f5 : l1.blocked = false := by rw [hl1]; simp [hb]
  refine ⟨s.put i l1, ?_, ?_, ?_, ?_⟩
  · simp only [Cfg.step, Cfg.evaluate, hbl, hput, if_neg (show ¬ (s.line i).blocked = true by simp [hb]), if_pos hne,
      Cfg.commands, if_neg n1, if_neg n2, if_pos hc]
    rw [if_pos hi, hl1]
    simp
  · rw [put_self, Line.Draining, f1]
    exact ⟨rfl, rfl, fun k => by simp, rfl, rfl⟩
  · rw [put_self, f3]
  · intro e' s2 h2
    have hbl1 : l1.block = l1 := by
      rcases block_cases l1 with ⟨x, -⟩ | ⟨x, -⟩ | ⟨-, -, -, -, -, -, -, -, -, -, x⟩
      · exact x
      · rw [f4] at x; exact absurd x (by decide)
      · rcases x with x | x
        · rw [f5] at x; cases x
        · rw [f4] at x; exact absurd x (by decide)
    simp only [Cfg.step, Cfg.evaluate, put_self, hbl1, put_put, f5, Bool.false_eq_true, if_false, f4, ne_eq, not_true,
      f2, if_pos (show (0 : Int) < 1 by decide), Cfg.progress, f3, if_true] at h2
    refine ⟨fun z => ?_, fun z => ?_⟩
    · rw [z] at h2
      simp only [Bool.false_eq_true, if_false] at h2
      injection h2 with h2
      exact h2.symm
    · rw [z] at h2
      simp only [if_true, Cfg.finish, put_self] at h2
      obtain ⟨outs', -, h2⟩ := Option.map_eq_some_iff.1 h2
      subst h2
      simp only [put_self]
      refine ⟨⟨rfl, rfl, fun k => ?_, ?_, ?_⟩, by simp⟩
      · simp [Line.stop, Line.stopDev, f2]
      · simp [Line.stop, Line.stopDev, f1]
      · simp [Line.stop, Line.stopDev, f1]

example :
    let es := exStart 0 0 1 ++ [.cycle 0 { out := .done 1, pump := true }, .cmd 0 cmdReset]
    Along exCfg NoUnlock exInit es ∧ ∃ s, exCfg.run exInit es = some s ∧ (s.line 0).state = 1 ∧
      (s.line 0).ncmd = cmdReset ∧ (s.line 0).dev.pump = true :=
  ⟨by decide +kernel, run_ex _ _ _ _ (by decide +kernel)⟩

/-- The dosing pumps for concentrated caustic and acid are on only in the steps that dose it (109 and 119), while the line
works. -/
theorem C88_dosing_partial (c : Cfg) (vals : Fin n → Nat → Nat → Rat) (outs : Nat → Bool) (es : List (Ev n)) (i : Fin n)
    (h1 : Along c NoUnlock (initial vals outs) es) (s : Sys n) (hs : c.run (initial vals outs) es = some s) :
    ((s.line i).dev.ns = true → (s.line i).curstep = 109 ∧ 0 < (s.line i).state) ∧
    ((s.line i).dev.nk = true → (s.line i).curstep = 119 ∧ 0 < (s.line i).state) :=
  ⟨(safe_run c vals outs es h1 s hs i).devs.ns, (safe_run c vals outs es h1 s hs i).devs.nk⟩

example :
    let es := exStart 0 0 256 ++ [.cycle 0 { out := .done 1, pump := true }, .cycle 0 { out := .done 1 },
      .cycle 0 { out := .done 1 }, .cycle 0 { out := .done 2, pump := true }]
    Along exCfg NoUnlock exInit es ∧ ∃ s, exCfg.run exInit es = some s ∧ (s.line 0).dev.nk = true :=
  ⟨by decide +kernel, run_ex _ _ _ _ (by decide +kernel)⟩

/-! ### Where it fails -/

/-- UNLOCK, given to a line that is not locked, makes a washing line "paused" without switching anything off.  PAUSE does
nothing to it afterwards. -/
theorem C88_unlock_violated : ∃ s, exCfg.run exInit (exStart 0 0 1 ++ [.cycle 0 { out := .done 1 },
      .cycle 0 { pump := true, valves := fun _ => true }, .cmd 0 cmdUnlock, .cycle 0 {}, .cmd 0 cmdPause, .cycle 0 {},
      .cycle 0 {}]) = some s ∧
    (s.line 0).state = -1 ∧ (s.line 0).dev.pump = true ∧ (s.line 0).dev.v 1 = true := run_ex _ _ _ _ (by decide +kernel)

/-- When this happens while caustic is dosed, even LOCK leaves the dosing pump on. -/
theorem C88_dosing_violated : ∃ s, exCfg.run exInit (exStart 0 0 512 ++ [.cycle 0 { out := .done 1 },
      .cycle 0 { out := .done 1 }, .cycle 0 { out := .done 1 }, .cycle 0 { out := .done 2 }, .cmd 0 cmdUnlock, .cycle 0 {},
      .cmd 0 cmdLock, .cycle 0 {}, .cycle 0 {}]) = some s ∧
    (s.line 0).state = lockedState ∧ (s.line 0).dev.ns = true := run_ex _ _ _ _ (by decide +kernel)

end Ptusa.Cip
