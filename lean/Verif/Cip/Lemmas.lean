import Verif.Cip.Spec
import Mathlib.Data.List.FinRange

/-!
# Lemmas on washing lines
-/
namespace Ptusa.Cip

variable {n : Nat}

/-! ## Updates -/

@[simp] theorem put_put (s : Sys n) (i : Fin n) (l l' : Line) : (s.put i l).put i l' = s.put i l' := by
  simp [Sys.put]

@[simp] theorem put_self (s : Sys n) (i : Fin n) (l : Line) : (s.put i l).line i = l := by simp [Sys.put]

@[simp] theorem put_ne (s : Sys n) {i j : Fin n} (l : Line) (h : j ≠ i) : (s.put i l).line j = s.line j := by
  simp [Sys.put, h]

@[simp] theorem put_outs (s : Sys n) (i : Fin n) (l : Line) : (s.put i l).outs = s.outs := rfl
@[simp] theorem put_scline (s : Sys n) (i : Fin n) (l : Line) : (s.put i l).scline = s.scline := rfl

theorem put_line (s : Sys n) (i j : Fin n) (l : Line) : (s.put i l).line j = if j = i then l else s.line j := by
  by_cases h : j = i
  · subst h; simp
  · simp [h]

/-! ## What does not change -/

/-- The fields of a line that its devices do not concern. -/
structure Core where
  state : Int
  curstep : Int
  curprg : Int
  ncmd : Nat
  blocked : Bool
  recipe : Option Nat
  prog : Nat
  conflict : Bool
  val : Nat → Nat → Rat

def Line.core (l : Line) : Core :=
  ⟨l.state, l.curstep, l.curprg, l.ncmd, l.blocked, l.recipe, l.prog, l.conflict, l.val⟩

@[simp] theorem stopDev_core (l : Line) : l.stopDev.core = l.core := rfl

@[simp] theorem initStep_core (l : Line) (e : Env) : (l.initStep e).core = l.core := by
  simp only [Line.initStep]
  repeat' split
  all_goals rfl

@[simp] theorem setRet_core (l : Line) (a b : Bool) : (l.setRet a b).core = l.core := by
  simp only [Line.setRet]
  split <;> rfl

section
variable (l : Line) (e : Env) (a b : Bool)
@[simp] theorem initStep_state : (l.initStep e).state = l.state := congrArg Core.state (initStep_core l e)
@[simp] theorem initStep_curstep : (l.initStep e).curstep = l.curstep := congrArg Core.curstep (initStep_core l e)
@[simp] theorem initStep_curprg : (l.initStep e).curprg = l.curprg := congrArg Core.curprg (initStep_core l e)
@[simp] theorem initStep_ncmd : (l.initStep e).ncmd = l.ncmd := congrArg Core.ncmd (initStep_core l e)
@[simp] theorem initStep_blocked : (l.initStep e).blocked = l.blocked := congrArg Core.blocked (initStep_core l e)
@[simp] theorem initStep_recipe : (l.initStep e).recipe = l.recipe := congrArg Core.recipe (initStep_core l e)
@[simp] theorem initStep_prog : (l.initStep e).prog = l.prog := congrArg Core.prog (initStep_core l e)
@[simp] theorem initStep_conflict : (l.initStep e).conflict = l.conflict := congrArg Core.conflict (initStep_core l e)
@[simp] theorem initStep_val : (l.initStep e).val = l.val := congrArg Core.val (initStep_core l e)
@[simp] theorem setRet_state : (l.setRet a b).state = l.state := congrArg Core.state (setRet_core l a b)
@[simp] theorem setRet_curstep : (l.setRet a b).curstep = l.curstep := congrArg Core.curstep (setRet_core l a b)
@[simp] theorem setRet_curprg : (l.setRet a b).curprg = l.curprg := congrArg Core.curprg (setRet_core l a b)
@[simp] theorem setRet_ncmd : (l.setRet a b).ncmd = l.ncmd := congrArg Core.ncmd (setRet_core l a b)
@[simp] theorem setRet_blocked : (l.setRet a b).blocked = l.blocked := congrArg Core.blocked (setRet_core l a b)
@[simp] theorem setRet_recipe : (l.setRet a b).recipe = l.recipe := congrArg Core.recipe (setRet_core l a b)
@[simp] theorem setRet_prog : (l.setRet a b).prog = l.prog := congrArg Core.prog (setRet_core l a b)
@[simp] theorem setRet_conflict : (l.setRet a b).conflict = l.conflict := congrArg Core.conflict (setRet_core l a b)
@[simp] theorem setRet_val : (l.setRet a b).val = l.val := congrArg Core.val (setRet_core l a b)
@[simp] theorem stopDev_state : l.stopDev.state = l.state := rfl
@[simp] theorem stopDev_curstep : l.stopDev.curstep = l.curstep := rfl
@[simp] theorem stopDev_curprg : l.stopDev.curprg = l.curprg := rfl
@[simp] theorem stopDev_ncmd : l.stopDev.ncmd = l.ncmd := rfl
@[simp] theorem stopDev_blocked : l.stopDev.blocked = l.blocked := rfl
@[simp] theorem stopDev_recipe : l.stopDev.recipe = l.recipe := rfl
@[simp] theorem stopDev_prog : l.stopDev.prog = l.prog := rfl
@[simp] theorem stopDev_conflict : l.stopDev.conflict = l.conflict := rfl
@[simp] theorem stopDev_val : l.stopDev.val = l.val := rfl
@[simp] theorem stop_state : l.stop.state = 0 := rfl
@[simp] theorem stop_curstep : l.stop.curstep = l.curstep := rfl
@[simp] theorem stop_curprg : l.stop.curprg = l.curprg := rfl
@[simp] theorem stop_ncmd : l.stop.ncmd = l.ncmd := rfl
@[simp] theorem stop_blocked : l.stop.blocked = l.blocked := rfl
@[simp] theorem stop_recipe : l.stop.recipe = l.recipe := rfl
@[simp] theorem stop_prog : l.stop.prog = l.prog := rfl
@[simp] theorem stop_conflict : l.stop.conflict = l.conflict := rfl
@[simp] theorem stop_val : l.stop.val = l.val := rfl
end

section
variable (l : Line) (p : Int) (o : Opt)
theorem goTo_spec : l.goTo p o = { l with curstep := (l.goTo p o).curstep, curprg := (l.goTo p o).curprg } := by
  simp only [Line.goTo]
  split <;> rfl
@[simp] theorem goTo_state : (l.goTo p o).state = l.state := by rw [goTo_spec]
@[simp] theorem goTo_ncmd : (l.goTo p o).ncmd = l.ncmd := by rw [goTo_spec]
@[simp] theorem goTo_blocked : (l.goTo p o).blocked = l.blocked := by rw [goTo_spec]
@[simp] theorem goTo_recipe : (l.goTo p o).recipe = l.recipe := by rw [goTo_spec]
@[simp] theorem goTo_prog : (l.goTo p o).prog = l.prog := by rw [goTo_spec]
@[simp] theorem goTo_conflict : (l.goTo p o).conflict = l.conflict := by rw [goTo_spec]
@[simp] theorem goTo_val : (l.goTo p o).val = l.val := by rw [goTo_spec]
@[simp] theorem load_state : (l.load o).state = l.state := rfl
@[simp] theorem load_ncmd : (l.load o).ncmd = l.ncmd := rfl
@[simp] theorem load_blocked : (l.load o).blocked = l.blocked := rfl
@[simp] theorem load_recipe : (l.load o).recipe = l.recipe := rfl
@[simp] theorem load_prog : (l.load o).prog = l.prog := rfl
@[simp] theorem load_conflict : (l.load o).conflict = l.conflict := rfl
@[simp] theorem load_val : (l.load o).val = l.val := rfl
end

/-! ## The kinds of a cycle -/

/-- The conditions under which a start is tried. -/
structure Try (c : Cfg) (s : Sys n) (i : Fin n) (l : Line) : Prop where
  cmd : l.ncmd = cmdEvaluate
  state : l.state = 0
  chosen : l.recipe ≠ none ∨ 256 ≤ l.prog
  prog : 0 < l.prog
  other : c.scEnabled → 0 < s.scline → s.scline = i + 1
  alone : c.scEnabled → s.scline = 0 → l.prog = 2048 → ∀ j, j ≠ i → (s.line j).state = 0

/-- `scline` after the attempt. -/
def Cfg.sc (c : Cfg) (s : Sys n) (i : Fin n) (l : Line) : Nat :=
  if c.scEnabled ∧ l.prog = 2048 then i + 1 else s.scline

/-- What a cycle does with the line `l` that is not locked. -/
inductive Act (c : Cfg) (s : Sys n) (i : Fin n) (e : Env) (l : Line) : Sys n → Prop
  | idle : Act c s i e l (s.put i { l with ncmd := 0 })
  | next : l.ncmd = cmdNext → l.state ≠ 0 → l.curstep ≠ 555 →
      Act c s i e l (s.put i { ({ l.goTo 0 e.opt with state := 1 } : Line).initStep e with ncmd := 0 })
  | pause : l.ncmd = cmdPause → 0 < l.state → l.curstep ≠ 555 →
      Act c s i e l (s.put i { l.stop with state := -1, ncmd := 0 })
  | reset : l.ncmd = cmdReset → l.state ≠ 0 →
      Act c s i e l (s.put i { ({ l.stop with curstep := 555 } : Line).initStep e with state := 1, ncmd := 0 })
  | forget : l.ncmd = cmdReset → l.state = 0 →
      Act c s i e l (s.put i { l with recipe := none, prog := 0, ncmd := 0 })
  | wrongOs : l.ncmd = cmdEvaluate → l.state < 0 → l.conflict = false → e.objErr = true →
      Act c s i e l (s.put i { l with state := errWrongOs, ncmd := 0 })
  | resume : l.ncmd = cmdEvaluate → l.state < 0 → l.conflict = false → e.objErr = false → l.state ≠ errAcid →
      Act c s i e l (s.put i { ({ l with state := 1 } : Line).initStep e with ncmd := 0 })
  | noSwitch : Try c s i l → c.car = true →
      Act c s i e l { s.put i { l with ncmd := 0 } with scline := c.sc s i l }
  | conflict : Try c s i l → (s.put i l).valvesConflict i = some true →
      Act c s i e l { s.put i { l with state := errConflict, conflict := true, ncmd := 0 } with scline := c.sc s i l }
  | startWrong : Try c s i l → (s.put i l).valvesConflict i = some false → e.objErr = true →
      Act c s i e l { s.put i { l with state := errWrongOs, conflict := false, ncmd := 0 } with scline := c.sc s i l }
  | startAcid : Try c s i l → (s.put i l).valvesConflict i = some false → e.objErr = false → e.acidDue = true →
      Act c s i e l { s.put i { l with state := errAcid, conflict := false, ncmd := 0 } with scline := c.sc s i l }
  | started (outs : Nat → Bool) (l' : Line) : Try c s i l → (s.put i l).valvesConflict i = some false →
      e.objErr = false → ¬ (e.acidDue = true ∧ l.prog.testBit 4 = false ∧ l.prog.testBit 5 = true) →
      c.onRecipe (i + 1) l.recipe l.val (c.closeLine (i + 1) s.outs) = some outs →
      l' = (if c.car then ({ l with state := 1, conflict := false } : Line).load e.opt
        else { l with state := 1, conflict := false }) →
      Act c s i e l { s.put i { l'.initStep e with ncmd := 0 } with scline := c.sc s i l, outs := outs }
  | ret (b : Bool) : l.ncmd = (if b then cmdRetOn else cmdRetOff) → l.state ≠ 0 →
      Act c s i e l (s.put i { ({ l with over := false } : Line).setRet b e.dry with over := true, ncmd := 0 })
  | go (v : Nat → Bool) (p r o : Bool) : l.ncmd = 0 → 0 < l.state → l.curstep ≠ 555 →
      Act c s i e l (s.put i { l with over := o, dev := { l.dev with pump := p, ret := r, v := v } })
  | done (v : Nat → Bool) (p r : Bool) (x : Int) (l1 l' : Line) : l.ncmd = 0 → 0 < l.state → l.curstep ≠ 555 →
      l.curstep ∈ knownSteps → l1 = { l with dev := { l.dev with pump := p, ret := r, v := v } } →
      l' = (if (l1.goTo x e.opt).curstep ≠ l1.curstep then (l1.goTo x e.opt).initStep e else l1.goTo x e.opt) →
      Act c s i e l (s.put i l')
  | fail (v : Nat → Bool) (p r : Bool) (x : StepErr) : l.ncmd = 0 → 0 < l.state → l.curstep ≠ 555 →
      Act c s i e l (s.put i { ({ l with state := x.code, dev := { l.dev with pump := p, ret := r, v := v } } : Line).stop with
        state := x.code })
  | finish (outs : Nat → Bool) : l.ncmd = 0 → 0 < l.state → l.curstep = 555 →
      (if l.conflict then some s.outs else (c.offRecipe (i + 1) l.recipe l.val s.outs).map (c.closeLine (i + 1))) = some outs →
      Act c s i e l { s.put i { l.stop with curstep := 0, curprg := -1, conflict := false, recipe := none, prog := 0 } with
        outs := outs
        scline := if c.scEnabled ∧ s.scline = i + 1 then 0 else s.scline }
  | auto : l.ncmd = 0 → e.feedback = true → l.state = -20 ∨ l.state = -19 →
      Act c s i e l (s.put i (({ l with state := 1 } : Line).initStep e))

theorem ncmd_eta (l : Line) (h : l.ncmd = 0) : { l with ncmd := 0 } = l := by
  cases l; simp_all

theorem act_idle (c : Cfg) (s : Sys n) (i : Fin n) (e : Env) (l : Line) (h : l.ncmd = 0) : Act c s i e l (s.put i l) := by
  have := Act.idle (c := c) (s := s) (i := i) (e := e) (l := l)
  rwa [ncmd_eta l h] at this

theorem start_act (c : Cfg) (s s' : Sys n) (i : Fin n) (e : Env) (l : Line) (hn : l.ncmd = cmdEvaluate) (h0 : l.state = 0)
    (hr : l.recipe ≠ none ∨ 256 ≤ l.prog) (hp : 0 < l.prog) (h : c.start (s.put i l) i e = some s') :
    Act c s i e l (s'.put i { s'.line i with ncmd := 0 }) := by
  simp only [Cfg.start, put_self, put_scline, put_outs] at h
  by_cases h1 : c.scEnabled ∧ 0 < s.scline ∧ s.scline ≠ i + 1
  · rw [if_pos h1] at h
    injection h with h
    subst h
    simpa using Act.idle
  rw [if_neg h1] at h
  by_cases h2 : c.scEnabled ∧ s.scline = 0 ∧ l.prog = 2048 ∧ ∃ j, j ≠ i ∧ ((s.put i l).line j).state ≠ 0
  · rw [if_pos h2] at h
    injection h with h
    subst h
    simpa using Act.idle
  rw [if_neg h2] at h
  have ht : Try c s i l := by
    refine ⟨hn, h0, hr, hp, fun a b => ?_, fun a b d j hj => ?_⟩
    · by_contra x
      exact h1 ⟨a, b, x⟩
    · by_contra x
      exact h2 ⟨a, b, d, j, hj, by rwa [put_ne _ _ hj]⟩
  have hs : (if c.scEnabled ∧ l.prog = 2048 then ⟨(s.put i l).line, s.outs, i + 1⟩ else s.put i l) =
      (⟨(s.put i l).line, s.outs, c.sc s i l⟩ : Sys n) := by
    unfold Cfg.sc
    split <;> rfl
  rw [hs] at h
  by_cases h3 : c.car ∧ e.switches = false ∧ l.prog ≠ 256 ∧ l.prog ≠ 512 ∧ l.prog ≠ 2048
  · rw [if_pos h3] at h
    injection h with h
    subst h
    have := Act.noSwitch (e := e) ht h3.1
    convert this using 1
    simp [Sys.put]
  rw [if_neg h3] at h
  obtain ⟨x, hx, h⟩ := Option.bind_eq_some_iff.1 h
  have hx' : (s.put i l).valvesConflict i = some x := hx
  cases x with
  | true =>
    simp only [if_true] at h
    injection h with h
    subst h
    have := Act.conflict (e := e) ht hx'
    convert this using 1
    simp [Sys.put]
  | false =>
    simp only [Bool.false_eq_true, if_false] at h
    by_cases h4 : e.objErr = true
    · rw [if_pos h4] at h
      injection h with h
      subst h
      have := Act.startWrong (e := e) ht hx' h4
      convert this using 1
      simp [Sys.put]
    rw [if_neg h4] at h
    have h4' : e.objErr = false := by simpa using h4
    by_cases h5 : e.acidDue = true ∧ l.prog.testBit 4 = false ∧ l.prog.testBit 5 = true
    · rw [if_pos h5] at h
      injection h with h
      subst h
      have := Act.startAcid (e := e) ht hx' h4' h5.1
      convert this using 1
      simp [Sys.put]
    rw [if_neg h5] at h
    obtain ⟨outs, ho, h⟩ := Option.map_eq_some_iff.1 h
    subst h
    have := Act.started (e := e) outs _ ht hx' h4' h5 ho rfl
    convert this using 1
    simp only [Sys.put, Function.update_idem, Function.update_self]

theorem resume_zero (l : Line) (e : Env) (h : l.state = 0) : l.resume e = l := by
  simp [Line.resume, h]

theorem commands_act (c : Cfg) (s s' : Sys n) (i : Fin n) (e : Env) (l : Line)
    (h : c.commands (s.put i l) i e = some s') : Act c s i e l (s'.put i { s'.line i with ncmd := 0 }) := by
  simp only [Cfg.commands, put_self, put_put] at h
  split at h
  next hc =>
    injection h with h
    subst h
    split
    next hd => simpa using Act.next hc hd.1 hd.2
    next => simpa using Act.idle
  split at h
  next hc =>
    injection h with h
    subst h
    split
    next hd => simpa using Act.pause hc hd.1 hd.2
    next => simpa using Act.idle
  split at h
  next hc =>
    injection h with h
    subst h
    split
    next hd => simpa using Act.reset hc hd
    next hd => simpa using Act.forget hc (by simpa using hd)
  split at h
  next hc =>
    by_cases h0 : l.state = 0
    · rw [resume_zero l e h0] at h
      split at h
      next hd => exact start_act c s s' i e l hc h0 hd.2.1 hd.2.2 h
      next =>
        injection h with h
        subst h
        simpa using Act.idle
    · have hr : (l.resume e).state ≠ 0 := by
        simp only [Line.resume]
        repeat' split
        all_goals first | exact h0 | (simp [errWrongOs])
      rw [if_neg (fun x => hr x.1)] at h
      injection h with h
      subst h
      simp only [put_self, put_put, Line.resume]
      split
      next ha =>
        split
        next hb => exact Act.wrongOs hc ha.1 ha.2 hb
        next hb =>
          split
          next hd => exact Act.resume hc ha.1 ha.2 (by simpa using hb) hd
          next => exact Act.idle
      next => exact Act.idle
  split at h
  next hc =>
    injection h with h
    subst h
    split
    next hd => simpa using Act.ret true (by simpa using hc) hd
    next => simpa using Act.idle
  split at h
  next hc =>
    injection h with h
    subst h
    split
    next hd => simpa using Act.ret false (by simpa using hc) hd
    next => simpa using Act.idle
  injection h with h
  subst h
  simpa using Act.idle

theorem progress_act (c : Cfg) (s s' : Sys n) (i : Fin n) (e : Env) (l : Line) (hn : l.ncmd = 0) (hs : 0 < l.state)
    (h : c.progress (s.put i l) i e = some s') : Act c s i e l s' := by
  simp only [Cfg.progress, put_self, put_put] at h
  split at h
  next hc =>
    split at h
    next =>
      simp only [Cfg.finish, put_self, put_put, put_outs, put_scline] at h
      obtain ⟨outs, ho, h⟩ := Option.map_eq_some_iff.1 h
      subst h
      exact Act.finish outs hn hs hc ho
    next =>
      injection h with h
      subst h
      exact act_idle c s i e l hn
  next hc =>
    split at h
    · injection h with h
      subst h
      split
      · simp only [Line.setRet]
        split
        next ho => exact (by simpa using Act.go (c := c) (s := s) (i := i) (e := e) (l := l) _ _ _ l.over hn hs hc)
        next ho => exact (by simpa using Act.go (c := c) (s := s) (i := i) (e := e) (l := l) _ _ _ l.over hn hs hc)
      · exact Act.go (c := c) (s := s) (i := i) (e := e) (l := l) _ _ _ l.over hn hs hc
    next hk =>
      injection h with h
      subst h
      split at hk
      next hin => exact Act.done e.valves e.pump e.ret _ _ _ hn hs hc hin rfl rfl
      next => cases hk
    · injection h with h
      subst h
      exact Act.fail _ _ _ _ hn hs hc

/-- A cycle of a line: it is locked, or one of the acts happens after commands for locking were handled. -/
theorem evaluate_act (c : Cfg) (s s' : Sys n) (i : Fin n) (e : Env) (h : c.evaluate s i e = some s') :
    ((s.line i).block.blocked = true ∧ s' = s.put i (s.line i).block) ∨
      ((s.line i).block.blocked = false ∧ Act c s i e (s.line i).block s') := by
  simp only [Cfg.evaluate] at h
  split at h
  next hb =>
    injection h with h
    exact Or.inl ⟨hb, h.symm⟩
  next hb =>
    refine Or.inr ⟨by simpa using hb, ?_⟩
    split at h
    next =>
      obtain ⟨t, ht, h⟩ := Option.map_eq_some_iff.1 h
      subst h
      exact commands_act c s t i e _ ht
    next hn =>
      have hn : (s.line i).block.ncmd = 0 := by simpa using hn
      split at h
      next hs => exact progress_act c s s' i e _ hn hs h
      next hs =>
        split at h
        next ht =>
          injection h with h
          subst h
          simp only [put_put, Line.inError]
          split
          next hf => exact Act.auto hn hf.1 hf.2
          next => exact act_idle c s i e _ hn
        next =>
          injection h with h
          subst h
          exact act_idle c s i e _ hn

/-! ## Locking -/

/-- Commands for locking: nothing, the line is unlocked, the line is locked. -/
theorem block_cases (l : Line) :
    (l.block = l ∧ l.blocked = false ∧ l.ncmd ≠ cmdLock ∧ l.ncmd ≠ cmdUnlock) ∨
    (l.ncmd = cmdUnlock ∧ l.block = { l with blocked := false, state := if 0 < l.curstep then -1 else 0, ncmd := 0 }) ∨
    (l.block.blocked = true ∧ l.block.state = lockedState ∧ l.block.curstep = l.curstep ∧ l.block.curprg = l.curprg ∧
      l.block.recipe = l.recipe ∧ l.block.prog = l.prog ∧ l.block.conflict = l.conflict ∧ l.block.val = l.val ∧
      l.block.ncmd = 0 ∧ l.ncmd ≠ cmdUnlock ∧ (l.blocked = true ∨ l.ncmd = cmdLock)) := by
  by_cases h1 : l.ncmd = cmdLock
  · refine Or.inr (Or.inr ?_)
    have h2 : l.ncmd ≠ cmdUnlock := by rw [h1]; decide
    have h3 : (0 : Nat) ≠ cmdUnlock := by decide
    simp only [Line.block, h1, if_true, if_neg h3]
    by_cases hs : 0 < l.state
    · simp [hs, Line.stop]
      decide
    · simp [hs]
      decide
  · by_cases h2 : l.ncmd = cmdUnlock
    · refine Or.inr (Or.inl ⟨h2, ?_⟩)
      simp only [Line.block, if_neg h1, if_pos h2]
      rfl
    · by_cases hb : l.blocked = true
      · refine Or.inr (Or.inr ?_)
        simp only [Line.block, if_neg h1, if_neg h2, if_pos hb]
        by_cases hs : 0 < l.state
        · simp [hs, hb, h2]
        · simp [hs, hb, h2]
      · refine Or.inl ⟨?_, by simpa using hb, h1, h2⟩
        simp only [Line.block, if_neg h1, if_neg h2, if_neg hb]

/-- Fields that commands for locking do not change. -/
theorem block_keep (l : Line) : l.block.curstep = l.curstep ∧ l.block.curprg = l.curprg ∧ l.block.recipe = l.recipe ∧
    l.block.prog = l.prog ∧ l.block.conflict = l.conflict ∧ l.block.val = l.val := by
  rcases block_cases l with ⟨h, -⟩ | ⟨-, h⟩ | ⟨-, -, h1, h2, h3, h4, h5, h6, -⟩
  · rw [h]; simp
  · rw [h]; simp
  · exact ⟨h1, h2, h3, h4, h5, h6⟩

/-! ## Steps -/

theorem nextBit_range (p k : Nat) : -1 ≤ nextBit p k ∧ nextBit p k ≤ k := by
  induction k with
  | zero => simp only [nextBit]; split <;> simp
  | succ k ih => simp only [nextBit]; split <;> omega

theorem ite_mem {c : Prop} [Decidable c] {a b : Int} {t : List Int} (ha : a ∈ t) (hb : b ∈ t) :
    (if c then a else b) ∈ t := by
  split <;> assumption

theorem start_known (b : Int) (p : Nat) (o : Opt) : startStep b p o ∈ knownSteps := by
  have h : startStep b p o ∈ ([5, 10, 22, 42, 61, 71, 91, 83, 81, 105, 115, 151, 300, 555] : List Int) := by
    unfold startStep
    repeat' apply ite_mem
    all_goals decide +kernel
  generalize startStep b p o = x at h
  revert x
  decide +kernel

theorem succ_known : ∀ x ∈ knownSteps, ∀ b : Bool, x ≠ 555 →
    (succ x b).all fun y => decide (y ∈ knownSteps ∧ 0 < y ∧ y ≠ 555 ∧ y ≠ x) := by
  decide +kernel

theorem within_known (x p : Int) (pr : Nat) (o : Opt) (h : x ∈ knownSteps) (h5 : x ≠ 555) (y : Int)
    (hy : within x p pr o = some y) : y ∈ knownSteps ∧ 0 < y ∧ y ≠ 555 ∧ y ≠ x := by
  have := succ_known x h (choice x p pr o) h5
  rw [show succ x (choice x p pr o) = some y from hy] at this
  simpa using this

end Ptusa.Cip
