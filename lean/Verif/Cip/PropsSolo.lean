import Verif.Cip.Solo
import Verif.Cip.PropsOrder

/-!
# Self-cleaning of the station (C90), the acid wash that is due (C91)
-/
namespace Ptusa.Cip

variable {n : Nat}

/-! ### Self-cleaning -/

/-- While a line cleans the tanks of the station (steps 151 to 188), all other lines are at rest: not washing, paused or in
error.  Missing: programs that no list offers, and programs changed during a wash. -/
theorem C90_alone_partial (c : Cfg) (hc : c.scEnabled = true) (vals : Fin n → Nat → Nat → Rat) (outs : Nat → Bool)
    (es : List (Ev n)) (h1 : Along c Selectable (initial vals outs) es) (h2 : Along c NoReprogram (initial vals outs) es)
    (s : Sys n) (hs : c.run (initial vals outs) es = some s) (i j : Fin n) (hij : j ≠ i)
    (hi : 151 ≤ (s.line i).curstep ∧ (s.line i).curstep ≤ 188) : (s.line j).AtRest := by
  have h := run_inv c (fun s e => Selectable s e ∧ NoReprogram s e)
    (fun s => Solo s ∧ (∀ i, (s.line i).prog ∈ selectable) ∧ ∀ i, Wf (s.line i) ∧ Belongs (s.line i))
    (fun s e s' hp hq ht => ⟨hq.1.step hc hp.2 ht, sel_step hq.2.1 hp.1 ht, Belongs.step hq.2.2 hp.2 ht⟩) es _ _ (h1.and h2)
    ⟨solo_initial vals outs, fun i => by simp [initial, selectable], fun i => ⟨wf_initial vals outs i, belongs_zero rfl⟩⟩ hs
  have hp : (s.line i).prog = 2048 := (sel_self _ (h.2.1 i)).1 ((h.2.2 i).2.self hi)
  exact h.1.alone i (h.1.own i hp fun z => by have := z.1; omega) j hij

def exSc : Cfg := { exCfg with scEnabled := true }

/-- Self-cleaning starts and goes on; the start of the other line in between is refused. -/
example :
    let es := exStart 0 0 2048 ++ [.cycle 0 { out := .done 1 }] ++ exStart 1 1 1 ++ [.cycle 0 { out := .done 1 }]
    Along exSc Selectable exInit es ∧ Along exSc NoReprogram exInit es ∧
      ∃ s, exSc.run exInit es = some s ∧ (s.line 0).curstep = 152 ∧ (s.line 1).prog = 1 ∧ (s.line 1).state = 0 :=
  ⟨by decide +kernel, by decide +kernel, run_ex _ _ _ _ (by decide +kernel)⟩

/-- When no line cleans the tanks or tried to since its last wash, a line can start next to a washing one. -/
example : ∃ s, exSc.run exInit (exStart 0 0 1 ++ exStart 1 1 1) = some s ∧ (s.line 0).Washing ∧ (s.line 1).Washing :=
  run_ex _ _ _ _ (by decide +kernel)

/-- A program with self-cleaning and another part is not recognised: the tanks are cleaned while a line washes. -/
theorem C90_bits_violated :
    let es := exStart 1 1 1 ++ exStart 0 0 2049 ++ [.cycle 0 { out := .done 1 }]
    ∃ s, exSc.run exInit es = some s ∧ (s.line 0).curstep = 151 ∧ (s.line 1).Washing := run_ex _ _ _ _ (by decide +kernel)

/-- A program chosen between the start and the first step is not checked: the tanks are cleaned while a line washes. -/
theorem C90_program_violated :
    let es := exStart 1 1 1 ++ exStart 0 0 1 ++ [.program 0 2048, .cycle 0 { out := .done 1 }]
    Along exSc Selectable exInit es ∧
      ∃ s, exSc.run exInit es = some s ∧ (s.line 0).curstep = 151 ∧ (s.line 1).Washing :=
  ⟨by decide +kernel, run_ex _ _ _ _ (by decide +kernel)⟩

/-- Self-cleaning whose start failed, left by LOCK and UNLOCK, keeps its claim: all lines are idle, but no other line can
start, whatever is done as long as line 0 is not used. -/
def exStuck : List (Ev 2) :=
  [.select 0 0, .program 0 2048, .cmd 0 cmdEvaluate, .cycle 0 { objErr := true }, .cmd 0 cmdLock, .cycle 0 {},
    .cmd 0 cmdUnlock, .cycle 0 {}, .cmd 0 cmdReset, .cycle 0 {}]

theorem C90_stuck_violated (fs : List (Ev 2)) (h : ∀ e ∈ fs, e.line = 1) :
    ∃ s, exSc.run exInit exStuck = some s ∧ (∀ i, (s.line i).state = 0 ∧ (s.line i).prog = 0) ∧
      ∀ s', exSc.run s fs = some s' → (s'.line 1).AtRest := by
  obtain ⟨s, hs, h0, hsc⟩ := run_ex exSc exInit exStuck
    (fun s => (∀ i, (s.line i).state = 0 ∧ (s.line i).prog = 0) ∧ s.scline = 1) (by decide +kernel)
  refine ⟨s, hs, h0, fun s' hs' => ?_⟩
  have hw : ∀ i, Wf (s.line i) := fun i => (fresh_run exSc exVals (fun _ => false) exStuck s hs i).1
  have key : ∀ (fs : List (Ev 2)) (s : Sys 2), (∀ e ∈ fs, e.line = 1) → (∀ i, Wf (s.line i)) → s.scline = 1 →
      (s.line 1).AtRest → ∀ s', exSc.run s fs = some s' → (s'.line 1).AtRest := by
    intro fs
    induction fs with
    | nil => intro s _ _ _ hr s' hs'; simp only [Cfg.run] at hs'; injection hs' with hs'; subst hs'; exact hr
    | cons e fs ih =>
      intro s he hw hsc hr s' hs'
      simp only [Cfg.run] at hs'
      cases ht : exSc.step s e with
      | none => rw [ht] at hs'; cases hs'
      | some t =>
        rw [ht] at hs'
        have hl := he e (by simp)
        have h2 : t.scline = 1 ∧ (t.line 1).AtRest := by
          rcases step_line ht with ⟨i, e, rfl, ⟨-, rfl⟩ | ⟨hb, ha⟩⟩ | ⟨i, p, rfl, rfl⟩ | ⟨l, rfl, a1, a2, a3, a4, a5⟩
          · obtain rfl : i = 1 := hl
            exact ⟨hsc, by rw [put_self]; exact hr.block⟩
          · obtain rfl : i = 1 := hl
            have hno : ¬ Try exSc s 1 (s.line 1).block := fun z => by
              have := z.other rfl (by omega)
              rw [hsc] at this
              exact absurd this (by decide)
            refine ⟨?_, (hr.block.act (hw 1).block hb ha).resolve_left hno⟩
            rcases act_sc ha with ⟨z, -⟩ | ⟨-, z⟩ | ⟨z, -⟩ | ⟨-, z⟩
            · exact absurd z hno
            · rw [z, hsc]
            · exact absurd z hno
            · rw [z, hsc]; rfl
          · obtain rfl : i = 1 := hl
            exact ⟨hsc, by rw [put_self]; exact hr⟩
          · rw [hl] at a1 a2 ⊢
            refine ⟨hsc, ?_⟩
            rw [put_self]
            exact ⟨a2.trans hr.1, by rw [a1]; exact hr.2⟩
        exact ih t (fun e' he' => he e' (by simp [he'])) (Wf.step hw ht) h2.1 h2.2 s' hs'
  exact key fs s h hw hsc ⟨(hw 1).zero (h0 1).1, Or.inl (h0 1).1⟩ s' hs'

/-- The other line has a recipe and a program and gets the order to start. -/
example : ∃ s, exSc.run exInit (exStuck ++ exStart 1 1 1) = some s ∧ (s.line 1).recipe = some 1 ∧ (s.line 1).prog = 1 ∧
    (s.line 1).state = 0 := run_ex _ _ _ _ (by decide +kernel)

/-! ### The acid wash -/

def exDue (i : Fin 2) (r p : Nat) : List (Ev 2) :=
  [.select i r, .program i p, .cmd i cmdEvaluate, .cycle i { acidDue := true }]

def exDone (k : Nat) : List (Ev 2) := List.replicate k (.cycle 0 { acidDue := true, out := .done 1 })

/-- The start of a program with caustic and without acid is refused when an acid wash is due: the devices of recipes do not
move and the line does not wash. -/
theorem C91_refused (c : Cfg) (s s' : Sys n) (i : Fin n) (e : Env) (hcmd : (s.line i).ncmd = cmdEvaluate)
    (hidle : (s.line i).state = 0) (hdue : e.acidDue = true) (h5 : (s.line i).prog.testBit 5 = true)
    (h4 : (s.line i).prog.testBit 4 = false) (hs : c.step s (.cycle i e) = some s') :
    s'.outs = s.outs ∧ (s'.line i).state ≤ 0 := by
  obtain ⟨k1, k2, k3, k4, k5, k6⟩ := block_keep (s.line i)
  have hcmd' : (s.line i).ncmd ≠ cmdLock ∧ (s.line i).ncmd ≠ cmdUnlock := by rw [hcmd]; decide
  have hbl : (s.line i).block.blocked = false → (s.line i).block = s.line i := fun hb => by
    rcases block_cases (s.line i) with ⟨x, -⟩ | ⟨x, -⟩ | ⟨x, -⟩
    · exact x
    · exact absurd x hcmd'.2
    · rw [hb] at x; cases x
  rcases evaluate_act c s s' i e hs with ⟨hb, rfl⟩ | ⟨hb, ha⟩
  · refine ⟨rfl, ?_⟩
    rw [put_self]
    rcases block_cases (s.line i) with ⟨x, -⟩ | ⟨x, -⟩ | ⟨-, x, -⟩
    · rw [x, hidle]
    · exact absurd x hcmd'.2
    · rw [x]; decide
  · rw [hbl hb] at ha
    cases ha
    case next h1 h2 h3 => rw [hcmd] at h1; exact absurd h1 (by decide)
    case reset h1 h2 => rw [hcmd] at h1; exact absurd h1 (by decide)
    case started outs l' ht h1 h2 h3 h6 h7 => exact absurd ⟨hdue, h4, h5⟩ h3
    case noSwitch => exact ⟨rfl, by simp [hidle]⟩
    case conflict => exact ⟨rfl, by simp [errConflict]⟩
    case startWrong => exact ⟨rfl, by simp [errWrongOs]⟩
    case startAcid => exact ⟨rfl, by simp [errAcid]⟩
    case idle => exact ⟨rfl, by simp [hidle]⟩
    case forget => exact ⟨rfl, by simp [hidle]⟩
    all_goals omega

example : ∃ s, exCfg.run exInit ((exDue 0 0 165).take 3) = some s ∧ (s.line 0).ncmd = cmdEvaluate ∧ (s.line 0).state = 0 ∧
    (s.line 0).prog.testBit 5 = true ∧ (s.line 0).prog.testBit 4 = false := run_ex _ _ _ _ (by decide +kernel)

/-- While an acid wash is due for the object of a line, the line is in a caustic step (22 to 40) only with a program that
has acid too.  Missing: the ways shown below. -/
theorem C91_acid_partial (c : Cfg) (vals : Fin n → Nat → Nat → Rat) (outs : Nat → Bool) (es : List (Ev n)) (i : Fin n)
    (h1 : Along c Selectable (initial vals outs) es) (h2 : Along c NoReprogram (initial vals outs) es)
    (h3 : Along c NoSkip (initial vals outs) es) (h4 : Along c ObjectsOk (initial vals outs) es)
    (h5 : Along c (AcidDue i) (initial vals outs) es) (s : Sys n) (hs : c.run (initial vals outs) es = some s)
    (hi : 22 ≤ (s.line i).curstep ∧ (s.line i).curstep ≤ 40) :
    (s.line i).prog.testBit 4 = true ∧ 4 ∈ parts (s.line i).prog := by
  have h := run_inv c (fun s e => ((((Selectable s e ∧ NoReprogram s e) ∧ NoSkip s e) ∧ ObjectsOk s e) ∧ AcidDue i s e))
    (fun s => Waits (s.line i) ∧ (∀ i, (s.line i).prog ∈ selectable) ∧ ∀ i, Wf (s.line i) ∧ Belongs (s.line i))
    (fun s e s' hp hq ht => ⟨hq.1.step (fun j => (hq.2.2 j).1) hp.1.1.1.2 hp.1.1.2 hp.1.2 hp.2 ht,
      sel_step hq.2.1 hp.1.1.1.1 ht, Belongs.step hq.2.2 hp.1.1.1.2 ht⟩) es _ _ ((((h1.and h2).and h3).and h4).and h5)
    ⟨fun x => by simp [initial] at x, fun i => by simp [initial, selectable],
      fun i => ⟨wf_initial vals outs i, belongs_zero rfl⟩⟩ hs
  have hb := (h.2.2 i).2.caustic hi
  rw [(sel_self _ (h.2.1 i)).2] at hb
  have h5 : (s.line i).prog.testBit 5 = true := by simpa using hb
  have h4 : (s.line i).prog.testBit 4 = true := by
    by_contra z
    rcases h.1 h5 (by simpa using z) with ⟨z, -⟩ | ⟨z, -⟩ <;> omega
  exact ⟨h4, by simp [parts, h4]⟩

/-- The caustic wash is refused, the one with acid after it is allowed. -/
example :
    let es := exDue 0 0 165 ++ [.cmd 0 cmdReset, .cycle 0 { acidDue := true }, .cycle 0 { acidDue := true, endNow := true }] ++
      exDue 0 0 181 ++ exDone 6
    Along exCfg Selectable exInit es ∧ Along exCfg NoReprogram exInit es ∧ Along exCfg NoSkip exInit es ∧
      Along exCfg ObjectsOk exInit es ∧ Along exCfg (AcidDue 0) exInit es ∧
      (∃ s, exCfg.run exInit (exDue 0 0 165) = some s ∧ (s.line 0).state = errAcid) ∧
      ∃ s, exCfg.run exInit es = some s ∧ (s.line 0).curstep = 23 ∧ (s.line 0).prog = 181 :=
  ⟨by decide +kernel, by decide +kernel, by decide +kernel, by decide +kernel, by decide +kernel,
    run_ex _ _ _ _ (by decide +kernel), run_ex _ _ _ _ (by decide +kernel)⟩

/-- NEXT starts the refused wash. -/
theorem C91_next_violated :
    let es := exDue 0 0 165 ++ [.cmd 0 cmdNext] ++ exDone 6
    Along exCfg (AcidDue 0) exInit es ∧ ∃ s, exCfg.run exInit es = some s ∧ (s.line 0).curstep = 23 ∧ (s.line 0).prog = 165 :=
  ⟨by decide +kernel, run_ex _ _ _ _ (by decide +kernel)⟩

/-- A failure to set up the object during EVALUATE takes the refusal away: the next EVALUATE starts the wash. -/
theorem C91_object_violated :
    let es := exDue 0 0 165 ++ [.cmd 0 cmdEvaluate, .cycle 0 { acidDue := true, objErr := true }, .cmd 0 cmdEvaluate] ++
      exDone 7
    Along exCfg (AcidDue 0) exInit es ∧ Along exCfg NoSkip exInit es ∧
      ∃ s, exCfg.run exInit es = some s ∧ (s.line 0).curstep = 23 ∧ (s.line 0).prog = 165 ∧ s.outs 12 = false :=
  ⟨by decide +kernel, by decide +kernel, run_ex _ _ _ _ (by decide +kernel)⟩

/-- The second caustic part of programs is not checked. -/
theorem C91_second_caustic_violated :
    let es := exDue 0 0 8 ++ exDone 2
    Along exCfg (AcidDue 0) exInit es ∧ ∃ s, exCfg.run exInit es = some s ∧ (s.line 0).curstep = 23 ∧ (s.line 0).prog = 8 :=
  ⟨by decide +kernel, run_ex _ _ _ _ (by decide +kernel)⟩

/-- The program can be changed after the check. -/
theorem C91_program_violated :
    let es := exDue 0 0 181 ++ [.program 0 165] ++ exDone 6
    Along exCfg (AcidDue 0) exInit es ∧ Along exCfg Selectable exInit es ∧
      ∃ s, exCfg.run exInit es = some s ∧ (s.line 0).curstep = 23 ∧ (s.line 0).prog = 165 :=
  ⟨by decide +kernel, by decide +kernel, run_ex _ _ _ _ (by decide +kernel)⟩

end Ptusa.Cip
