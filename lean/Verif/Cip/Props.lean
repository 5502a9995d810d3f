import Verif.Cip.Valves
import Verif.Cip.Decide

/-!
# Washing lines do not use each other's valves (C87)
-/
namespace Ptusa.Cip

variable {n : Nat}

/-! Examples: two lines; recipe 0 of both opens valve 12 and closes valve 13, recipe 1 opens 14. -/

/-- Valve `m` has the serial number `m`; numbers 1001 and up exist for line 1 only. -/
def exCfg : Cfg := ⟨fun l m => if l = 1 ∧ 1000 < m then m else 0, fun m => if m < 1000 then m else 0, false, false⟩

def exVals : Fin 2 → Nat → Nat → Rat := fun _ r k =>
  if r = 0 then (if k = 105 then 12 else if k = 115 then 13 else 0) else (if k = 105 then 14 else 0)

def exInit : Sys 2 := initial exVals fun _ => false

/-- Choose a recipe and a program, then start. -/
def exStart (i : Fin 2) (r p : Nat) : List (Ev 2) := [.select i r, .program i p, .cmd i cmdEvaluate, .cycle i {}]

theorem exCfg_distinct : exCfg.Distinct := by
  have : ∀ l m d, exCfg.find l m = some d → m = d := by
    intro l m d h
    have key : ∀ (p q : Prop) [Decidable p] [Decidable q],
        (if 0 < (if p then m else 0) then some (if p then m else 0) else
          if 0 < (if q then m else 0) then some (if q then m else 0) else none) = some d → m = d := by
      intro p q _ _ h
      by_cases hp : p <;> by_cases hq : q <;> by_cases hm : 0 < m <;> simp_all
    exact key _ _ h
  intro l l' m m' d h h'
  rw [this l m d h, this l' m' d h']

theorem exVals_whole (i : Fin 2) (r k : Nat) : Whole (exVals i r k) := by
  unfold exVals
  split
  · split
    · exact ⟨12, by norm_num, by norm_num⟩
    · split
      · exact ⟨13, by norm_num, by norm_num⟩
      · exact ⟨0, by norm_num, by norm_num⟩
  · split
    · exact ⟨14, by norm_num, by norm_num⟩
    · exact ⟨0, by norm_num, by norm_num⟩

/-! ### Exclusion -/

/-- Two lines that wash never have recipes that need the same valve, one of them opening it, when refused starts are not
skipped and recipes are chosen and edited for idle lines only. -/
theorem C87_exclusive_partial (c : Cfg) (vals : Fin n → Nat → Nat → Rat) (outs : Nat → Bool) (es : List (Ev n))
    (h1 : Along c NoSkip (initial vals outs) es) (h2 : Along c NoChange (initial vals outs) es) (s : Sys n)
    (hs : c.run (initial vals outs) es = some s) (i j : Fin n) (hij : i ≠ j) (hi : (s.line i).Washing)
    (hj : (s.line j).Washing) (r r' : Nat) (hr : (s.line i).recipe = some r) (hr' : (s.line j).recipe = some r') :
    ¬ Clash ((s.line i).val r) ((s.line j).val r') := by
  have := run_inv c (fun s e => NoSkip s e ∧ NoChange s e) (fun s => Excl s ∧ ∀ i, Refused (s.line i))
    (fun s e s' hp hq ht => ⟨hq.1.step hp.2 ht, Refused.step hq.1.wf hq.2 hp.1 ht⟩) es _ _ (h1.and h2)
    ⟨excl_initial vals outs, fun i x => by simp [initial] at x⟩ hs
  exact this.1.free i j hij (washing_held (this.2 i) hi) (washing_held (this.2 j) hj) r r' hr hr'

/-- Two lines wash with different recipes. -/
example : Along exCfg NoSkip exInit (exStart 0 0 1 ++ exStart 1 1 1) ∧
    Along exCfg NoChange exInit (exStart 0 0 1 ++ exStart 1 1 1) ∧
    ∃ s, exCfg.run exInit (exStart 0 0 1 ++ exStart 1 1 1) = some s ∧ (s.line 0).Washing ∧ (s.line 1).Washing ∧
      (s.line 0).recipe = some 0 ∧ (s.line 1).recipe = some 1 :=
  ⟨by decide +kernel, by decide +kernel, run_ex _ _ _ _ (by decide +kernel)⟩

/-- A start that needs a valve of a line that is not idle is refused: no device of a recipe moves and the line does not
wash. -/
theorem C87_refused (c : Cfg) (s s' : Sys n) (i j : Fin n) (e : Env) (hij : j ≠ i)
    (hcmd : (s.line i).ncmd = cmdEvaluate) (hidle : (s.line i).state = 0) (hbusy : (s.line j).state ≠ 0) (r r' : Nat)
    (hr : (s.line i).recipe = some r) (hr' : (s.line j).recipe = some r')
    (hc : Clash ((s.line i).val r) ((s.line j).val r')) (hs : c.step s (.cycle i e) = some s') :
    s'.outs = s.outs ∧ (s'.line i).state ≤ 0 := by
  have hx : ∀ x, (s.put i (s.line i).block).valvesConflict i = some x → x = true := fun x hx => by
    obtain ⟨k1, k2, k3, k4, k5, k6⟩ := block_keep (s.line i)
    exact (conflict_iff s i (s.line i).block r (k3.trans hr) x hx).2 ⟨j, hij, hbusy, r', hr', by rw [k6]; exact hc⟩
  rcases evaluate_act c s s' i e hs with ⟨hb, rfl⟩ | ⟨hb, ha⟩
  · rcases block_cases (s.line i) with ⟨h, h', -⟩ | ⟨h, -⟩ | ⟨-, h, -⟩
    · rw [h, h'] at hb; cases hb
    · rw [hcmd] at h; exact absurd h (by decide)
    · exact ⟨rfl, by rw [put_self, h]; decide⟩
  · have hbl : (s.line i).block = s.line i := by
      rcases block_cases (s.line i) with ⟨h, -⟩ | ⟨h, -⟩ | ⟨h, -⟩
      · exact h
      · rw [hcmd] at h; exact absurd h (by decide)
      · rw [h] at hb; cases hb
    rw [hbl] at ha hx
    have hz : (s.line i).ncmd ≠ 0 := by rw [hcmd]; decide
    cases ha
    case idle => exact ⟨rfl, by simp [hidle]⟩
    case noSwitch => exact ⟨rfl, by simp [hidle]⟩
    case conflict => exact ⟨rfl, by simp [errConflict]⟩
    case startWrong h _ => exact absurd (hx _ h) (by decide)
    case startAcid h _ _ => exact absurd (hx _ h) (by decide)
    case started h _ _ _ _ => exact absurd (hx _ h) (by decide)
    case wrongOs => exact ⟨rfl, by simp [errWrongOs]⟩
    case forget h _ => rw [hcmd] at h; exact absurd h (by decide)
    all_goals omega

/-- The second line wants the valve of the first one. -/
example : ∃ s, exCfg.run exInit (exStart 0 0 1 ++ (exStart 1 0 1).take 3) = some s ∧ (s.line 1).ncmd = cmdEvaluate ∧
    (s.line 1).state = 0 ∧ (s.line 0).state ≠ 0 ∧ (s.line 1).recipe = some 0 ∧ (s.line 0).recipe = some 0 ∧
    clash ((s.line 1).val 0) ((s.line 0).val 0) = true ∧ s.outs 12 = true := run_ex _ _ _ _ (by decide +kernel)

/-- Without such a line the wash starts at once. -/
theorem C87_started (c : Cfg) (s : Sys n) (i : Fin n) (e : Env) (hsc : c.scEnabled = false) (hcar : c.car = false)
    (ho : e.objErr = false) (ha : e.acidDue = false) (hcmd : (s.line i).ncmd = cmdEvaluate) (hidle : (s.line i).state = 0)
    (hb : (s.line i).blocked = false) (r : Nat) (hr : (s.line i).recipe = some r) (hp : 0 < (s.line i).prog)
    (hw : ∀ k, Whole ((s.line i).val r k))
    (hc : ∀ j, j ≠ i → (s.line j).state ≠ 0 → ∀ r', (s.line j).recipe = some r' →
      ¬ Clash ((s.line i).val r) ((s.line j).val r')) :
    ∃ s', c.step s (.cycle i e) = some s' ∧ (s'.line i).state = 1 ∧ (s'.line i).curstep = (s.line i).curstep ∧
      (∀ m d : Nat, 0 < m → Opens ((s.line i).val r) m → ¬ (∃ m' : Nat, 0 < m' ∧ Closes ((s.line i).val r) m' ∧
        c.find (i + 1) m' = some d) → c.find (i + 1) m = some d → s'.outs d = true) ∧
      (∀ m d : Nat, 0 < m → Closes ((s.line i).val r) m → c.find (i + 1) m = some d → s'.outs d = false) := by
  have hbl : (s.line i).block = s.line i := by
    rcases block_cases (s.line i) with ⟨h, -⟩ | ⟨h, -⟩ | ⟨-, -, -, -, -, -, -, -, -, -, h⟩
    · exact h
    · rw [hcmd] at h; exact absurd h (by decide)
    · rcases h with h | h
      · rw [hb] at h; cases h
      · rw [hcmd] at h; exact absurd h (by decide)
  have hput : s.put i (s.line i) = s := by simp [Sys.put]
  have hconf : s.valvesConflict i = some false := by
    cases hv : s.valvesConflict i with
    | none => simp [Sys.valvesConflict, hr] at hv
    | some x =>
      cases x with
      | false => rfl
      | true =>
        obtain ⟨j, h1, h2, r', h3, h4⟩ := (conflict_iff s i (s.line i) r hr true (by rw [hput]; exact hv)).1 rfl
        exact absurd h4 (hc j h1 h2 r' h3)
  obtain ⟨on, h1, -⟩ := mapM_devNo ((s.line i).val r) hw onIdx
  obtain ⟨off, h3, -⟩ := mapM_devNo ((s.line i).val r) hw offIdx
  obtain ⟨outs, hout⟩ : ∃ outs, c.onRecipe (i + 1) (some r) (s.line i).val (c.closeLine (i + 1) s.outs) = some outs :=
    ⟨_, by simp only [Cfg.onRecipe, h1, h3, Option.bind_some, Option.map_some]; rfl⟩
  have hne : (s.line i).ncmd ≠ 0 := by rw [hcmd]; decide
  have n1 : ¬ (s.line i).ncmd = cmdNext := by rw [hcmd]; decide
  have n2 : ¬ (s.line i).ncmd = cmdPause := by rw [hcmd]; decide
  have n3 : ¬ (s.line i).ncmd = cmdReset := by rw [hcmd]; decide
  have hstart : c.start s i e = some { s.put i (({ s.line i with state := 1, conflict := false } : Line).initStep e) with
      outs := outs } := by
    simp only [Cfg.start, hsc, hcar, hconf, ho, ha, hr, hout, Bool.false_eq_true, false_and, if_false, Option.bind_some,
      Option.map_some]
  refine ⟨{ s.put i { ({ s.line i with state := 1, conflict := false } : Line).initStep e with ncmd := 0 } with
    outs := outs }, ?_, ?_, ?_, ?_, ?_⟩
  · simp only [Cfg.step, Cfg.evaluate, hbl, hput, if_neg (show ¬ (s.line i).blocked = true by simp [hb]), if_pos hne,
      Cfg.commands, if_neg n1, if_neg n2, if_neg n3, if_pos hcmd, resume_zero _ _ hidle]
    rw [if_pos ⟨hidle, Or.inl (by simp [hr]), hp⟩, hstart]
    simp [Sys.put]
  · simp
  · simp
  · intro m d hm hO hC hf
    exact ((onRecipe_spec c _ r _ hw _ _ hout d).2 hC).1 ⟨m, hm, hO, hf⟩
  · intro m d hm hC hf
    exact (onRecipe_spec c _ r _ hw _ _ hout d).1 ⟨m, hm, hC, hf⟩

example : ∃ s, exCfg.run exInit (exStart 0 0 1 ++ (exStart 1 1 1).take 3) = some s ∧ (s.line 1).ncmd = cmdEvaluate ∧
    (s.line 1).state = 0 ∧ (s.line 1).blocked = false ∧ (s.line 1).recipe = some 1 ∧ 0 < (s.line 1).prog ∧
    clash ((s.line 1).val 1) ((s.line 0).val 0) = false := run_ex _ _ _ _ (by decide +kernel)

/-! ### Positions -/

/-- While a line washes, the valves with numbers below 1000 that its recipe opens (and does not also close) are on, those
it closes are off, whatever the other lines do.  Different numbers have to be different devices, values of recipes whole
numbers, and the devices of the washed object must not fail to be set up. -/
theorem C87_valves_partial (c : Cfg) (hd : c.Distinct) (vals : Fin n → Nat → Nat → Rat) (hv : ∀ i r k, Whole (vals i r k))
    (outs : Nat → Bool) (es : List (Ev n))
    (h1 : Along c NoSkip (initial vals outs) es) (h2 : Along c NoChange (initial vals outs) es)
    (h3 : Along c ObjectsOk (initial vals outs) es) (h4 : Along c WholeEdits (initial vals outs) es) (s : Sys n)
    (hs : c.run (initial vals outs) es = some s) (i : Fin n) (hi : (s.line i).Washing) (r : Nat)
    (hr : (s.line i).recipe = some r) (m d : Nat) (hm : 0 < m) (hm' : m < 1000) (hf : c.find (i + 1) m = some d) :
    (Opens ((s.line i).val r) m → ¬ Closes ((s.line i).val r) m → s.outs d = true) ∧
    (Closes ((s.line i).val r) m → s.outs d = false) := by
  have := run_inv c Good (Right c) (fun s e s' hp hq ht => hq.step hd hp ht) es _ _
    (h1.and (h2.and (h3.and h4))) (right_initial c vals hv outs) hs
  have hb : Begun (s.line i) := ⟨washing_held (this.refused i) hi, fun z => by
    have := hi.1; rw [z] at this; exact absurd this (by decide), hi.2⟩
  have := this.set i hb r hr
  exact ⟨fun ho hc => this.on m d hm hm' ho hc hf, fun hc => this.off m d hm hm' hc hf⟩

/-- The first line washes, the second one is refused, washes with another recipe after it and is reset. -/
example :
    let es := exStart 0 0 1 ++ exStart 1 0 1 ++ [.cmd 1 cmdReset, .cycle 1 {}, .cycle 1 { endNow := true }] ++ exStart 1 1 1
    Along exCfg NoSkip exInit es ∧ Along exCfg NoChange exInit es ∧ Along exCfg ObjectsOk exInit es ∧
      Along exCfg WholeEdits exInit es ∧
      ∃ s, exCfg.run exInit es = some s ∧ (s.line 0).Washing ∧ (s.line 1).Washing ∧ s.outs 12 = true ∧
        s.outs 13 = false ∧ s.outs 14 = true :=
  ⟨by decide +kernel, by decide +kernel, by decide +kernel, by decide +kernel, run_ex _ _ _ _ (by decide +kernel)⟩

/-- When the wash is over, the valves its recipe opened are off. -/
theorem C87_closed_partial (c : Cfg) (vals : Fin n → Nat → Nat → Rat) (outs : Nat → Bool) (es : List (Ev n))
    (h1 : Along c NoSkip (initial vals outs) es) (h2 : Along c NoChange (initial vals outs) es) (s : Sys n)
    (hs : c.run (initial vals outs) es = some s) (i : Fin n) (hi : (s.line i).Washing) (r : Nat)
    (hr : (s.line i).recipe = some r) (hw : ∀ k, Whole ((s.line i).val r k))
    (fs : List (Ev n)) (e : Ev n) (h3 : Along c NoChange s (fs ++ [e])) (h4 : Along c (NoEarlyUnlock i) s (fs ++ [e]))
    (h5 : Along c (Busy i) s (fs ++ [e])) (s1 s2 : Sys n) (hs1 : c.run s fs = some s1) (hs2 : c.step s1 e = some s2)
    (hidle : (s2.line i).state = 0) (m d : Nat) (hm : 0 < m) (ho : Opens ((s.line i).val r) m)
    (hf : c.find (i + 1) m = some d) : s2.outs d = false := by
  have hinv := run_inv c (fun s e => NoSkip s e ∧ NoChange s e) (fun s => Excl s ∧ ∀ i, Refused (s.line i))
    (fun s e s' hp hq ht => ⟨hq.1.step hp.2 ht, Refused.step hq.1.wf hq.2 hp.1 ht⟩) es _ _ (h1.and h2)
    ⟨excl_initial vals outs, fun i x => by simp [initial] at x⟩ hs
  have h0 : With r ((s.line i).val r) (s.line i) :=
    ⟨hinv.1.wf i, hw, by have := hi.1; omega, (washing_held (hinv.2 i) hi).free, hr, rfl⟩
  have key : ∀ (fs : List (Ev n)) (t : Sys n), With r ((s.line i).val r) (t.line i) → Along c NoChange t (fs ++ [e]) →
      Along c (NoEarlyUnlock i) t (fs ++ [e]) → Along c (Busy i) t (fs ++ [e]) → c.run t fs = some s1 →
      With r ((s.line i).val r) (s2.line i) ∨ (s2.line i).state = 0 ∧ Off c s2.outs i ((s.line i).val r) := by
    intro fs
    induction fs with
    | nil =>
      intro t ht a1 a2 a3 hrun
      simp only [Cfg.run, Option.some.injEq] at hrun
      subst hrun
      exact with_step ht a1.1 a2.1 hs2
    | cons f fs ih =>
      intro t ht a1 a2 a3 hrun
      simp only [Cfg.run] at hrun
      obtain ⟨u, hu, hrun⟩ := Option.bind_eq_some_iff.1 hrun
      rcases with_step ht a1.1 a2.1 hu with h | h
      · exact ih u h (a1.2 u hu) (a2.2 u hu) (a3.2 u hu) hrun
      · have hb : (u.line i).state ≠ 0 := by
          have := a3.2 u hu
          cases fs with
          | nil => exact this.1
          | cons => exact this.1
        exact absurd h.1 hb
  rcases key fs s h0 h3 h4 h5 hs1 with h | h
  · exact absurd hidle h.busy
  · exact h.2 m d hm ho hf

/-- A wash is started, comes to its first step, is locked, unlocked and reset. -/
example :
    let fs : List (Ev 2) := [.cycle 0 { out := .done 1 }, .cmd 0 cmdLock, .cycle 0 {}, .cmd 0 cmdUnlock, .cycle 0 {},
      .cmd 0 cmdReset, .cycle 0 {}, .cycle 0 {}]
    let e : Ev 2 := .cycle 0 { endNow := true }
    ∃ s, exCfg.run exInit (exStart 0 0 1) = some s ∧ (s.line 0).Washing ∧ (s.line 0).recipe = some 0 ∧
      Along exCfg NoChange s (fs ++ [e]) ∧ Along exCfg (NoEarlyUnlock 0) s (fs ++ [e]) ∧
      Along exCfg (Busy 0) s (fs ++ [e]) ∧ s.outs 12 = true ∧
      ((exCfg.run s fs).bind (exCfg.step · e)).any (fun s => decide ((s.line 0).state = 0 ∧ s.outs 12 = false)) = true :=
  run_ex _ _ _ _ (by decide +kernel)

/-! ### Where it fails -/

/-- The command NEXT, given to a line that was refused because of its valves, starts the wash all the same: both lines
wash with the same valve. -/
theorem C87_next_violated : ∃ s, exCfg.run exInit (exStart 0 0 1 ++ exStart 1 0 1 ++ [.cmd 1 cmdNext, .cycle 1 {}]) = some s ∧
    (s.line 0).Washing ∧ (s.line 1).Washing ∧ (s.line 0).recipe = some 0 ∧ (s.line 1).recipe = some 0 ∧
    Clash ((s.line 0).val 0) ((s.line 1).val 0) := by
  have := run_ex exCfg exInit (exStart 0 0 1 ++ exStart 1 0 1 ++ [.cmd 1 cmdNext, .cycle 1 {}]) (fun s =>
    (s.line 0).Washing ∧ (s.line 1).Washing ∧ (s.line 0).recipe = some 0 ∧ (s.line 1).recipe = some 0 ∧
    clash ((s.line 0).val 0) ((s.line 1).val 0) = true) (by decide +kernel)
  simpa only [clash_iff] using this

/-- A recipe can be chosen for a line that washes: the valves are not compared again, both lines wash with the same
valve, and at the end of the wash the line closes the valve of the other one. -/
theorem C87_select_violated : ∃ s, exCfg.run exInit (exStart 0 0 1 ++ exStart 1 1 1 ++
      [.select 1 0, .cmd 1 cmdReset, .cycle 1 {}, .cycle 1 { endNow := true }]) = some s ∧
    (s.line 0).Washing ∧ (s.line 0).recipe = some 0 ∧ Opens ((s.line 0).val 0) 12 ∧ s.outs 12 = false ∧
      s.outs 14 = true ∧ (s.line 1).state = 0 := by
  have := run_ex exCfg exInit (exStart 0 0 1 ++ exStart 1 1 1 ++
      [.select 1 0, .cmd 1 cmdReset, .cycle 1 {}, .cycle 1 { endNow := true }]) (fun s =>
    (s.line 0).Washing ∧ (s.line 0).recipe = some 0 ∧ (s.line 0).val 0 105 = 12 ∧ s.outs 12 = false ∧
      s.outs 14 = true ∧ (s.line 1).state = 0) (by decide +kernel)
  obtain ⟨s, h1, h2, h3, h4, h5⟩ := this
  exact ⟨s, h1, h2, h3, ⟨105, by decide, by decide, h4⟩, h5⟩

/-- The recipe of a line that washes can be edited, with the same effect. -/
theorem C87_edit_violated : ∃ s, exCfg.run exInit (exStart 0 0 1 ++ exStart 1 1 1 ++
      [.edit 1 1 105 12, .cmd 1 cmdReset, .cycle 1 {}, .cycle 1 { endNow := true }]) = some s ∧
    (s.line 0).Washing ∧ (s.line 0).recipe = some 0 ∧ Opens ((s.line 0).val 0) 12 ∧ s.outs 12 = false ∧
      s.outs 14 = true ∧ (s.line 1).state = 0 := by
  have := run_ex exCfg exInit (exStart 0 0 1 ++ exStart 1 1 1 ++
      [.edit 1 1 105 12, .cmd 1 cmdReset, .cycle 1 {}, .cycle 1 { endNow := true }]) (fun s =>
    (s.line 0).Washing ∧ (s.line 0).recipe = some 0 ∧ (s.line 0).val 0 105 = 12 ∧ s.outs 12 = false ∧
      s.outs 14 = true ∧ (s.line 1).state = 0) (by decide +kernel)
  obtain ⟨s, h1, h2, h3, h4, h5⟩ := this
  exact ⟨s, h1, h2, h3, ⟨105, by decide, by decide, h4⟩, h5⟩

/-- The values of recipes are compared as numbers, but used without their fraction: a recipe that closes 12.5 does not
conflict with one that opens 12, and closes its valve. -/
theorem C87_fraction_violated : ∃ s, exCfg.run exInit ([.edit 1 1 115 (25 / 2)] ++ exStart 0 0 1 ++ exStart 1 1 1) = some s ∧
    (s.line 0).Washing ∧ (s.line 1).Washing ∧ (s.line 0).recipe = some 0 ∧ Opens ((s.line 0).val 0) 12 ∧
      s.outs 12 = false := by
  have := run_ex exCfg exInit ([.edit 1 1 115 (25 / 2)] ++ exStart 0 0 1 ++ exStart 1 1 1) (fun s =>
    (s.line 0).Washing ∧ (s.line 1).Washing ∧ (s.line 0).recipe = some 0 ∧ (s.line 0).val 0 105 = 12 ∧
      s.outs 12 = false) (by decide +kernel)
  obtain ⟨s, h1, h2, h3, h4, h5, h6⟩ := this
  exact ⟨s, h1, h2, h3, h4, ⟨105, by decide, by decide, h5⟩, h6⟩

/-- Numbers from 1000 on are never compared.  Where the line has no valve of its own with the number, they mean a device
of the whole station. -/
theorem C87_shared_violated :
    let c : Cfg := ⟨fun _ _ => 0, fun m => if m = 1500 then 7 else 0, false, false⟩
    ∃ s, c.run exInit ([.edit 0 0 105 1500, .edit 1 1 115 1500] ++ exStart 0 0 1 ++ exStart 1 1 1) = some s ∧
    (s.line 0).Washing ∧ (s.line 1).Washing ∧ (s.line 0).recipe = some 0 ∧ Opens ((s.line 0).val 0) 1500 ∧
      c.find 1 1500 = some 7 ∧ s.outs 7 = false := by
  intro c
  have := run_ex c exInit ([.edit 0 0 105 1500, .edit 1 1 115 1500] ++ exStart 0 0 1 ++ exStart 1 1 1) (fun s =>
    (s.line 0).Washing ∧ (s.line 1).Washing ∧ (s.line 0).recipe = some 0 ∧ (s.line 0).val 0 105 = 1500 ∧
      c.find 1 1500 = some 7 ∧ s.outs 7 = false) (by decide +kernel)
  obtain ⟨s, h1, h2, h3, h4, h5, h6⟩ := this
  exact ⟨s, h1, h2, h3, h4, ⟨105, by decide, by decide, h5⟩, h6⟩

/-- When the devices of the object could not be set up at the start and can be later, EVALUATE goes on as after a pause:
the line washes, but the valves of its recipe were never opened. -/
theorem C87_unopened_violated : ∃ s, exCfg.run exInit
      [.select 0 0, .program 0 1, .cmd 0 cmdEvaluate, .cycle 0 { objErr := true }, .cmd 0 cmdEvaluate, .cycle 0 {}] = some s ∧
    (s.line 0).Washing ∧ (s.line 0).recipe = some 0 ∧ Opens ((s.line 0).val 0) 12 ∧ s.outs 12 = false := by
  have := run_ex exCfg exInit
      [.select 0 0, .program 0 1, .cmd 0 cmdEvaluate, .cycle 0 { objErr := true }, .cmd 0 cmdEvaluate, .cycle 0 {}] (fun s =>
    (s.line 0).Washing ∧ (s.line 0).recipe = some 0 ∧ (s.line 0).val 0 105 = 12 ∧ s.outs 12 = false) (by decide +kernel)
  obtain ⟨s, h1, h2, h3, h4, h5⟩ := this
  exact ⟨s, h1, h2, h3, ⟨105, by decide, by decide, h4⟩, h5⟩

/-- Unlocking a line that was locked before its first step makes it idle, without closing the valves of the recipe.  After
RESET the recipe is forgotten and nothing closes them. -/
theorem C87_unlock_violated : ∃ s, exCfg.run exInit (exStart 0 0 1 ++
      [.cmd 0 cmdLock, .cycle 0 {}, .cmd 0 cmdUnlock, .cycle 0 {}, .cmd 0 cmdReset, .cycle 0 {}]) = some s ∧
    (s.line 0).state = 0 ∧ (s.line 0).recipe = none ∧ s.outs 12 = true := run_ex _ _ _ _ (by decide +kernel)

/-- A program from 256 on (preparation, self-cleaning) needs no recipe to be started; without one the comparison of the
valves reads before the recipes of the line. -/
theorem C87_no_recipe_violated (c : Cfg) (s : Sys n) (i : Fin n) (e : Env) (h1 : (s.line i).ncmd = cmdEvaluate)
    (h2 : (s.line i).state = 0) (h3 : (s.line i).blocked = false) (h4 : (s.line i).recipe = none)
    (h5 : (s.line i).prog = 256) (h6 : c.scEnabled = false) : c.step s (.cycle i e) = none := by
  have hbl : (s.line i).block = s.line i := by
    rcases block_cases (s.line i) with ⟨h, -⟩ | ⟨h, -⟩ | ⟨-, -, -, -, -, -, -, -, -, -, h⟩
    · exact h
    · rw [h1] at h; exact absurd h (by decide)
    · rcases h with h | h
      · rw [h3] at h; cases h
      · rw [h1] at h; exact absurd h (by decide)
  have hput : s.put i (s.line i) = s := by simp [Sys.put]
  have hne : (s.line i).ncmd ≠ 0 := by rw [h1]; decide
  have n1 : ¬ (s.line i).ncmd = cmdNext := by rw [h1]; decide
  have n2 : ¬ (s.line i).ncmd = cmdPause := by rw [h1]; decide
  have n3 : ¬ (s.line i).ncmd = cmdReset := by rw [h1]; decide
  simp only [Cfg.step, Cfg.evaluate, hbl, hput, if_neg (show ¬ (s.line i).blocked = true by simp [h3]), if_pos hne,
    Cfg.commands, if_neg n1, if_neg n2, if_neg n3, if_pos h1, resume_zero _ _ h2]
  rw [if_pos ⟨h2, Or.inr (by omega), by omega⟩]
  simp [Cfg.start, h6, h5, Sys.valvesConflict, h4]

example : ∃ s, exCfg.run exInit [.program 0 256, .cmd 0 cmdEvaluate] = some s ∧ (s.line 0).ncmd = cmdEvaluate ∧
    (s.line 0).state = 0 ∧ (s.line 0).blocked = false ∧ (s.line 0).recipe = none ∧ (s.line 0).prog = 256 :=
  run_ex _ _ _ _ (by decide +kernel)

/-- The number of a recipe is not checked: 25 and more read behind the recipes. -/
theorem C87_number_violated (c : Cfg) (s : Sys n) (i : Fin n) (h : (s.line i).blocked = false) (r : Nat) (hr : 25 ≤ r) :
    c.step s (.select i r) = none := by
  have : ¬ r < recipes := by unfold recipes; omega
  simp [Cfg.step, h, this]

example : (exInit.line 0).blocked = false := rfl

end Ptusa.Cip
