import Verif.Cip.Visit
import Verif.Cip.Props

/-!
# The order of the steps of a wash (C89)
-/
namespace Ptusa.Cip

variable {n : Nat}

/-- Whatever is done, a line is in one of the steps that the program knows; it washes only in such a step. -/
theorem C89_known (c : Cfg) (vals : Fin n → Nat → Nat → Rat) (outs : Nat → Bool) (es : List (Ev n)) (s : Sys n)
    (hs : c.run (initial vals outs) es = some s) (i : Fin n) :
    (s.line i).curstep ∈ knownSteps ∧ ((s.line i).state = 0 → (s.line i).curstep = 0) :=
  ⟨(fresh_run c vals outs es s hs i).1.known, (fresh_run c vals outs es s hs i).1.zero⟩

example :
    let es := exStart 0 0 1 ++ [.cycle 0 { out := .done 1 }, .program 0 65535, .cmd 0 cmdNext, .cycle 0 {}]
    ∃ s, exCfg.run exInit es = some s ∧ (s.line 0).curstep = 84 := run_ex _ _ _ _ (by decide +kernel)

/-- A line that was idle with a program below 4096 goes through the steps of a wash with this program in their order, as
far as it comes, and from the end of the wash back to rest; this holds for all errors, pauses, locks, skipped steps and
everything other lines do, as long as the line gets neither a new program nor RESET. -/
theorem C89_order_partial (c : Cfg) (vals : Fin n → Nat → Nat → Rat) (outs : Nat → Bool) (es fs : List (Ev n)) (s : Sys n)
    (hs : c.run (initial vals outs) es = some s) (i : Fin n) (p : Nat) (hp : p < 4096) (hi : (s.line i).state = 0)
    (hprog : (s.line i).prog = p) (hcmd : (s.line i).ncmd ≠ cmdReset) (h1 : Along c (Without i [cmdReset]) s fs)
    (h2 : Along c (NoProgram i) s fs) : ∃ t, Wash p t ∧ visited c i s fs <+: t ++ [0] := by
  obtain ⟨hw, hf⟩ := fresh_run c vals outs es s hs i
  have h0 := hw.zero hi
  have hb := hf h0
  obtain ⟨⟨u, hu, hv⟩, -⟩ := visit_A c i p hp fs s
    ⟨hw, hprog, by rw [h0, hb]; exact ⟨by decide, by decide, by decide, by decide, by decide⟩, by rw [h0]; decide, hcmd⟩ h1 h2
  rw [h0, hb] at hu
  exact ⟨u, rest_wash p hp u hu, hv⟩

/-- When the wash is over, the line has gone through all of its steps. -/
theorem C89_complete_partial (c : Cfg) (vals : Fin n → Nat → Nat → Rat) (outs : Nat → Bool) (es fs : List (Ev n))
    (s s' : Sys n) (hs : c.run (initial vals outs) es = some s) (i : Fin n) (p : Nat) (hp : p < 4096)
    (hi : (s.line i).state = 0) (hprog : (s.line i).prog = p) (hcmd : (s.line i).ncmd ≠ cmdReset)
    (h1 : Along c (Without i [cmdReset]) s fs) (h2 : Along c (NoProgram i) s fs) (hs' : c.run s fs = some s')
    (hend : (s'.line i).curstep = 555) : Wash p (visited c i s fs) := by
  obtain ⟨hw, hf⟩ := fresh_run c vals outs es s hs i
  have h0 := hw.zero hi
  have hb := hf h0
  have hu := (visit_A c i p hp fs s
    ⟨hw, hprog, by rw [h0, hb]; exact ⟨by decide, by decide, by decide, by decide, by decide⟩, by rw [h0]; decide, hcmd⟩
      h1 h2).2 s' hs' hend
  rw [h0, hb] at hu
  exact rest_wash p hp _ hu

/-- A rinse before and after the acid: a pause, an error and a lock in between. -/
def exWash : List (Ev 2) :=
  [.cmd 0 cmdEvaluate, .cycle 0 {}, .cycle 0 { out := .done 1 }, .cycle 0 { out := .done 1 },
    .cmd 0 cmdPause, .cycle 0 {}, .cmd 0 cmdEvaluate, .cycle 0 {}, .cycle 0 { out := .done 1 },
    .cycle 0 { out := .fail .noFlow }, .cmd 0 cmdEvaluate, .cycle 0 {}, .cycle 0 { out := .done 1 },
    .cmd 0 cmdLock, .cycle 0 {}, .cmd 0 cmdUnlock, .cycle 0 {}, .cmd 0 cmdEvaluate, .cycle 0 {}] ++
  List.replicate 13 (.cycle 0 { out := .done 1 }) ++ [.cmd 0 cmdNext] ++
  List.replicate 7 (.cycle 0 { out := .done 1 })

example : (∃ s, exCfg.run exInit [.select 0 0, .program 0 149] = some s ∧ (s.line 0).state = 0 ∧ (s.line 0).prog = 149 ∧
    (s.line 0).ncmd ≠ cmdReset ∧ Along exCfg (Without 0 [cmdReset]) s exWash ∧ Along exCfg (NoProgram 0) s exWash ∧
    visited exCfg 0 s exWash = [5, 7, 8, 16, 42, 43, 44, 46, 48, 49, 53, 54, 55, 57, 59, 60, 61, 66, 67, 81, 83, 84, 85, 86] ∧
    ∃ s', exCfg.run s (exWash ++ List.replicate 2 (.cycle 0 { out := .done 1 })) = some s' ∧ (s'.line 0).curstep = 555) :=
  ⟨_, rfl, by decide +kernel, by decide +kernel, by decide +kernel, by decide +kernel, by decide +kernel, by decide +kernel,
    run_ex _ _ _ _ (by decide +kernel)⟩

/-- Every program below 4096 has a wash, and a wash ends with its parts done: the specification is not empty. -/
theorem C89_wash_exists (p : Nat) (hp : p < 4096) : ∃ t, Wash p t := by
  obtain ⟨u, hu⟩ := rest_exists p hp 0 (-1) (by decide) (by decide) ⟨by decide, by decide⟩
  exact ⟨u, rest_wash p hp u hu⟩

/-- Which step follows a step of a running wash that is over, where two may: caustic and acid go round over their tanks when
that is wanted, dosing is repeated until the concentration is right (result 1), the self-cleaning refills tanks with a
volume only. -/
def Chosen (p : Int) (o : Opt) (cur next : Int) : Prop :=
  (cur = 24 → next = if o.circS then 28 else 26) ∧ (cur = 44 → next = if o.circK then 48 else 46) ∧
  (cur = 108 → next = if p = 1 then 111 else 109) ∧ (cur = 118 → next = if p = 1 then 121 else 119) ∧
  (cur = 157 → next = if o.scS then 160 else 161) ∧ (cur = 164 → next = if o.scK then 167 else 168) ∧
  (cur = 170 → next = if o.scW then 173 else 174) ∧ (cur = 176 → next = if o.scS then 179 else 180)

theorem C89_choice (c : Cfg) (s s' : Sys n) (i : Fin n) (e : Env) (p : Int) (hb : (s.line i).blocked = false)
    (hn : (s.line i).ncmd = 0) (hw : (s.line i).Washing) (ho : e.out = .done p) (hs : c.step s (.cycle i e) = some s') :
    Chosen p e.opt (s.line i).curstep (s'.line i).curstep := by
  have hblk : (s.line i).block = s.line i := by
    simp [Line.block, hn, hb, cmdLock, cmdUnlock]
  have key : ∀ cur ∈ ([24, 44, 108, 118, 157, 164, 170, 176] : List Int), (s.line i).curstep = cur →
      some (s'.line i).curstep = within cur p (s.line i).prog e.opt := by
    intro cur hcur he
    have hk : cur ∈ knownSteps := by
      clear he; revert cur; decide
    have h555 : cur ≠ 555 := by rw [← he]; exact hw.2
    have hgo : ∃ q, within cur p (s.line i).prog e.opt = some q := by
      simp only [within]
      revert hcur
      generalize choice cur p (s.line i).prog e.opt = b
      clear hk h555 he
      intro hcur
      simp only [List.mem_cons, List.not_mem_nil, or_false] at hcur
      rcases hcur with rfl | rfl | rfl | rfl | rfl | rfl | rfl | rfl <;> cases b <;> exact ⟨_, rfl⟩
    obtain ⟨q, hq⟩ := hgo
    have hini : ∀ l : Line, (l.initStep e).curstep = l.curstep := by
      intro l
      simp only [Line.initStep, Line.stopDev]
      split
      · rfl
      split
      · rfl
      split <;> rfl
    simp only [Cfg.step, Cfg.evaluate, hblk, hb, hn, Bool.false_eq_true, if_false, ne_eq, not_true_eq_false, hw.1, if_true,
      Cfg.progress, put_self, he, h555, hk, ho, Line.goTo, hq, Option.some.injEq] at hs
    subst hs
    rw [put_self, hq]
    split
    · rw [hini]
    · rfl
  refine ⟨?_, ?_, ?_, ?_, ?_, ?_, ?_, ?_⟩ <;> intro h <;> have := key _ (by decide) h <;> clear key <;>
    simp only [within, choice, succ] at this <;> simp at this <;> split at this <;>
    (rename_i h'; simp only [h', if_true, if_false, Bool.false_eq_true]; exact Option.some.inj this)

example : ∃ s s', exCfg.run exInit (exStart 0 0 149 ++ List.replicate 7 (.cycle 0 { out := .done 1 })) = some s ∧
    (s.line 0).blocked = false ∧ (s.line 0).ncmd = 0 ∧ (s.line 0).Washing ∧ (s.line 0).curstep = 44 ∧
    exCfg.step s (.cycle 0 { out := .done 1, opt := { circK := true } }) = some s' ∧ (s'.line 0).curstep = 48 :=
  ⟨_, _, rfl, by decide +kernel, by decide +kernel, ⟨by decide +kernel, by decide +kernel⟩, by decide +kernel, rfl, by decide +kernel⟩

/-- A program with a bit above 11 has no steps: the line opens the valves of the recipe and is at the end at once. -/
theorem C89_high_bits_violated :
    let es := exStart 0 0 4097 ++ [.cycle 0 { out := .done 1 }]
    ∃ s, exCfg.run exInit es = some s ∧ (s.line 0).curstep = 555 ∧ visited exCfg 0 exInit es = [555] ∧ s.outs 12 = true :=
  run_ex _ _ _ _ (by decide +kernel)

/-- A new program for a line that washes changes the steps that are left: an acid wash ends without a rinse. -/
theorem C89_program_violated :
    let es := exStart 0 0 149 ++ List.replicate 5 (.cycle 0 { out := .done 1 }) ++ [.program 0 16] ++
      List.replicate 12 (.cycle 0 { out := .done 1 })
    ∃ s, exCfg.run exInit es = some s ∧ (s.line 0).curstep = 555 ∧
      visited exCfg 0 exInit es = [5, 7, 8, 16, 42, 43, 44, 46, 48, 49, 53, 54, 55, 57, 59, 60, 555] :=
  run_ex _ _ _ _ (by decide +kernel)

end Ptusa.Cip
