import Verif.Cip.Inv

/-!
# Lemmas on the devices of a line
-/
namespace Ptusa.Cip

variable {n : Nat}

theorem initStep_ns (l : Line) (e : Env) (h : (l.initStep e).dev.ns = true) :
    l.curstep = 109 ∨ l.dev.ns = true ∧ l.curstep ≠ 106 := by
  simp only [Line.initStep] at h
  split at h
  next hc => exact Or.inr ⟨h, by omega⟩
  next =>
    split at h
    next hc => exact Or.inr ⟨h, by omega⟩
    next =>
      split at h
      next =>
        simp only at h
        split at h
        next hc => exact Or.inl hc
        next =>
          split at h
          · cases h
          next hc => exact Or.inr ⟨h, by omega⟩
      next hk => exact Or.inr ⟨h, fun z => hk (by simp only [z]; decide +kernel)⟩

theorem initStep_nk (l : Line) (e : Env) (h : (l.initStep e).dev.nk = true) :
    l.curstep = 119 ∨ l.dev.nk = true ∧ l.curstep ≠ 116 := by
  simp only [Line.initStep] at h
  split at h
  next hc => exact Or.inr ⟨h, by omega⟩
  next =>
    split at h
    next hc => exact Or.inr ⟨h, by omega⟩
    next =>
      split at h
      next =>
        simp only at h
        split at h
        next hc => exact Or.inl hc
        next =>
          split at h
          · cases h
          next hc => exact Or.inr ⟨h, by omega⟩
      next hk => exact Or.inr ⟨h, fun z => hk (by simp only [z]; decide +kernel)⟩

theorem initStep_end (l : Line) (e : Env) (h : l.curstep = 555) (h1 : l.state ≠ -20) (h2 : l.state ≠ -19) :
    (l.initStep e).dev = ⟨false, false, fun k => decide (k = 11), l.dev.ns, l.dev.nk⟩ := by
  simp only [Line.initStep, h, if_neg (show ¬ (555 : Int) = 0 by decide), if_true, Line.stopDev]
  simp only [h1, h2, or_self, and_false, if_false]
  congr 1

theorem goTo_109 (l : Line) (p : Int) (o : Opt) (h : l.curstep = 109) : (l.goTo p o).curstep = 106 := by
  simp only [Line.goTo, within, h]
  rfl

theorem goTo_119 (l : Line) (p : Int) (o : Opt) (h : l.curstep = 119) : (l.goTo p o).curstep = 116 := by
  simp only [Line.goTo, within, h]
  rfl

/-- The devices of a line. -/
structure Devs (l : Line) : Prop where
  ns : l.dev.ns = true → l.curstep = 109 ∧ 0 < l.state
  nk : l.dev.nk = true → l.curstep = 119 ∧ 0 < l.state
  pump : l.state ≤ 0 → l.dev.pump = false
  v : l.state ≤ 0 → ∀ k, l.dev.v k = true → (7 ≤ k ∧ k ≤ 12) ∧ (l.state = -19 ∨ l.state = -20 ∨ l.state = errWrongOs)
  fin : l.curstep = 555 → l.dev.pump = false ∧ ∀ k, l.dev.v k = true → k = 11

theorem stop_dev (l : Line) (h : Devs l) : l.stop.dev.ns = false ∧ l.stop.dev.nk = false ∧ l.stop.dev.pump = false ∧
    l.stop.dev.ret = false ∧ ∀ k, l.stop.dev.v k = true → (7 ≤ k ∧ k ≤ 12) ∧ (l.state = -20 ∨ l.state = -19) := by
  refine ⟨?_, ?_, rfl, rfl, fun k hk => ?_⟩
  · cases hn : l.dev.ns with
    | false => simp [Line.stop, Line.stopDev, hn]
    | true => simp [Line.stop, Line.stopDev, (h.ns hn).1]
  · cases hn : l.dev.nk with
    | false => simp [Line.stop, Line.stopDev, hn]
    | true => simp [Line.stop, Line.stopDev, (h.nk hn).1]
  · simp only [Line.stop, Line.stopDev] at hk
    split at hk
    next hx => exact hx
    next => cases hk

theorem devs_initial (vals : Fin n → Nat → Nat → Rat) (outs : Nat → Bool) (i : Fin n) : Devs ((initial vals outs).line i) :=
  ⟨by simp [initial], by simp [initial], by simp [initial], by simp [initial], by simp [initial]⟩

/-- Initialising a step keeps the dosing pumps right. -/
theorem devs_init (l l' : Line) (e : Env) (h : Devs l) (h1 : l'.state = 1) (h2 : l'.dev.ns = l.dev.ns)
    (h3 : l'.dev.nk = l.dev.nk) (h4 : l.curstep = 109 → l'.curstep = 109 ∨ l'.curstep = 106)
    (h5 : l.curstep = 119 → l'.curstep = 119 ∨ l'.curstep = 116) (x : Line)
    (hx : x = { l'.initStep e with ncmd := x.ncmd }) : Devs x := by
  have hd : x.dev = (l'.initStep e).dev := by rw [hx]
  have hc : x.curstep = l'.curstep := by rw [hx]; simp
  have hs : x.state = 1 := by rw [hx]; simp [h1]
  constructor
  · intro z
    rw [hd] at z
    rw [hc, hs]
    refine ⟨?_, by decide⟩
    rcases initStep_ns _ _ z with y | ⟨y1, y2⟩
    · exact y
    · rw [h2] at y1
      rcases h4 (h.ns y1).1 with y | y
      · exact y
      · exact absurd y y2
  · intro z
    rw [hd] at z
    rw [hc, hs]
    refine ⟨?_, by decide⟩
    rcases initStep_nk _ _ z with y | ⟨y1, y2⟩
    · exact y
    · rw [h3] at y1
      rcases h5 (h.nk y1).1 with y | y
      · exact y
      · exact absurd y y2
  · intro z; rw [hs] at z; exact absurd z (by decide)
  · intro z; rw [hs] at z; exact absurd z (by decide)
  · intro z
    rw [hc] at z
    rw [hd, initStep_end l' e z (by rw [h1]; decide) (by rw [h1]; decide)]
    exact ⟨rfl, fun k hk => by simpa using hk⟩

theorem Devs.act {c : Cfg} {s s' : Sys n} {i : Fin n} {e : Env} {l : Line} (hw : Wf l) (h : Devs l)
    (ha : Act c s i e l s') : Devs (s'.line i) := by
  cases ha
  case idle => simp only [put_self]; exact ⟨h.ns, h.nk, h.pump, h.v, h.fin⟩
  case next h1 h2 h3 =>
    simp only [put_self]
    refine devs_init l { l.goTo 0 e.opt with state := 1 } e h rfl ?_ ?_ ?_ ?_ _ rfl
    · rw [goTo_spec]
    · rw [goTo_spec]
    · intro z; exact Or.inr (goTo_109 l 0 e.opt z)
    · intro z; exact Or.inr (goTo_119 l 0 e.opt z)
  case pause h1 h2 h3 =>
    obtain ⟨d1, d2, d3, d4, d5⟩ := stop_dev l h
    simp only [put_self]
    refine ⟨fun z => ?_, fun z => ?_, fun _ => d3, fun _ k z => ?_, fun z => ?_⟩
    · simp only at z; rw [d1] at z; cases z
    · simp only at z; rw [d2] at z; cases z
    · have := d5 k z; omega
    · simp only [stop_curstep] at z; exact absurd z h3
  case reset h1 h2 =>
    obtain ⟨d1, d2, d3, d4, d5⟩ := stop_dev l h
    simp only [put_self]
    have he := initStep_end { l.stop with curstep := 555 } e rfl (by simp) (by simp)
    refine ⟨fun z => ?_, fun z => ?_, fun z => absurd z (by simp), fun z => absurd z (by simp), fun _ => ?_⟩
    · simp only at z; rw [he] at z; simp only at z; rw [d1] at z; cases z
    · simp only at z; rw [he] at z; simp only at z; rw [d2] at z; cases z
    · simp only; rw [he]; exact ⟨rfl, fun k hk => by simpa using hk⟩
  case forget h1 h2 => simp only [put_self]; exact ⟨h.ns, h.nk, h.pump, h.v, h.fin⟩
  case wrongOs h1 h2 h3 h4 =>
    simp only [put_self]
    refine ⟨fun z => ?_, fun z => ?_, fun _ => h.pump (by omega), fun _ k z => ?_, h.fin⟩
    · have := h.ns z; omega
    · have := h.nk z; omega
    · exact ⟨(h.v (by omega) k z).1, Or.inr (Or.inr rfl)⟩
  case resume h1 h2 h3 h4 h5 =>
    simp only [put_self]
    exact devs_init l { l with state := 1 } e h rfl rfl rfl (fun z => Or.inl z) (fun z => Or.inl z) _ rfl
  case noSwitch ht _ => simp only [put_self]; exact ⟨h.ns, h.nk, h.pump, h.v, h.fin⟩
  case conflict ht _ =>
    have h0 := ht.state
    simp only [put_self]
    refine ⟨fun z => ?_, fun z => ?_, fun _ => h.pump (by omega), fun _ k z => ?_, h.fin⟩
    · have := h.ns z; omega
    · have := h.nk z; omega
    · have := h.v (by omega) k z; rw [h0] at this; exact absurd this.2 (by decide)
  case startWrong ht _ _ =>
    have h0 := ht.state
    simp only [put_self]
    refine ⟨fun z => ?_, fun z => ?_, fun _ => h.pump (by omega), fun _ k z => ?_, h.fin⟩
    · have := h.ns z; omega
    · have := h.nk z; omega
    · have := h.v (by omega) k z; rw [h0] at this; exact absurd this.2 (by decide)
  case startAcid ht _ _ _ =>
    have h0 := ht.state
    simp only [put_self]
    refine ⟨fun z => ?_, fun z => ?_, fun _ => h.pump (by omega), fun _ k z => ?_, h.fin⟩
    · have := h.ns z; omega
    · have := h.nk z; omega
    · have := h.v (by omega) k z; rw [h0] at this; exact absurd this.2 (by decide)
  case started outs l' ht h1 h2 h3 h4 h5 =>
    simp only [put_self]
    have h0 := hw.zero ht.state
    refine devs_init l l' e h ?_ ?_ ?_ (fun z => by omega) (fun z => by omega) _ rfl
    all_goals rw [h5]; split <;> rfl
  case ret b h1 h2 =>
    have hd : ∀ d, (({ l with over := false } : Line).setRet b d).dev = { l.dev with ret := b && !d } := by
      intro d; simp [Line.setRet]
    simp only [put_self]
    refine ⟨fun z => ?_, fun z => ?_, fun z => ?_, fun z k y => ?_, fun z => ?_⟩ <;>
      simp only [hd, setRet_curstep, setRet_state] at *
    · exact h.ns z
    · exact h.nk z
    · exact h.pump z
    · exact h.v z k y
    · exact h.fin z
  case go h1 h2 h3 =>
    simp only [put_self]
    exact ⟨h.ns, h.nk, fun z => by simp only at z; omega, fun z => by simp only at z; omega, fun z => absurd z h3⟩
  case done v p r x l1 l' h1 h2 h3 h4 h5 h6 =>
    simp only [put_self]
    have hk1 : l1.curstep = l.curstep := by rw [h5]
    have hk2 : l1.dev.ns = l.dev.ns := by rw [h5]
    have hk3 : l1.dev.nk = l.dev.nk := by rw [h5]
    have hk4 : l1.state = l.state := by rw [h5]
    split at h6
    next hne =>
      have hd : l'.dev = ((l1.goTo x e.opt).initStep e).dev := by rw [h6]
      have hc : l'.curstep = (l1.goTo x e.opt).curstep := by rw [h6]; simp
      have hs : l'.state = l.state := by rw [h6]; simp [hk4]
      have hn1 : (l1.goTo x e.opt).dev = l1.dev := by rw [goTo_spec]
      refine ⟨fun z => ?_, fun z => ?_, fun z => by omega, fun z => by omega, fun z => ?_⟩
      · rw [hd] at z
        refine ⟨?_, by omega⟩
        rw [hc]
        rcases initStep_ns _ _ z with y | ⟨y1, y2⟩
        · exact y
        · rw [hn1, hk2] at y1
          exact absurd (goTo_109 l1 x e.opt (hk1.trans (h.ns y1).1)) y2
      · rw [hd] at z
        refine ⟨?_, by omega⟩
        rw [hc]
        rcases initStep_nk _ _ z with y | ⟨y1, y2⟩
        · exact y
        · rw [hn1, hk3] at y1
          exact absurd (goTo_119 l1 x e.opt (hk1.trans (h.nk y1).1)) y2
      · rw [hc] at z
        have hs' : (l1.goTo x e.opt).state = l.state := by simp [hk4]
        rw [hd, initStep_end _ e z (by omega) (by omega)]
        exact ⟨rfl, fun k hk => by simpa using hk⟩
    next hne =>
      have hne : (l1.goTo x e.opt).curstep = l1.curstep := by simpa using hne
      have hc : l'.curstep = l.curstep := by rw [h6, hne, hk1]
      have hs : l'.state = l.state := by rw [h6]; simp [hk4]
      have hd : l'.dev = l1.dev := by rw [h6, goTo_spec]
      refine ⟨fun z => ?_, fun z => ?_, fun z => by omega, fun z => by omega, fun z => by omega⟩
      · rw [hd, hk2] at z; rw [hc, hs]; exact h.ns z
      · rw [hd, hk3] at z; rw [hc, hs]; exact h.nk z
  case fail v p r x h1 h2 h3 =>
    obtain ⟨d1, d2, d3, d4, d5⟩ := stop_dev { l with state := 1, dev := { l.dev with pump := p, ret := r, v := v } }
      ⟨fun z => ⟨(h.ns z).1, by simp⟩, fun z => ⟨(h.nk z).1, by simp⟩, fun z => absurd z (by simp), fun z => absurd z (by simp), fun z => absurd z h3⟩
    simp only [put_self]
    refine ⟨fun z => ?_, fun z => ?_, fun _ => rfl, fun _ k z => ?_, fun z => absurd z h3⟩
    · simp only [Line.stop, Line.stopDev] at z d1; rw [d1] at z; cases z
    · simp only [Line.stop, Line.stopDev] at z d2; rw [d2] at z; cases z
    · simp only [Line.stop, Line.stopDev] at z
      split at z
      next hx => exact ⟨hx.1, by simp only; rcases hx.2 with y | y <;> simp [y]⟩
      next => cases z
  case finish outs h1 h2 h3 h4 =>
    obtain ⟨d1, d2, d3, d4, d5⟩ := stop_dev l h
    simp only [put_self]
    refine ⟨fun z => ?_, fun z => ?_, fun _ => d3, fun _ k z => ?_, fun z => absurd z (by simp)⟩
    · simp only at z; rw [d1] at z; cases z
    · simp only at z; rw [d2] at z; cases z
    · have := d5 k z; omega
  case auto h1 h2 h3 =>
    simp only [put_self]
    exact devs_init l { l with state := 1 } e h rfl rfl rfl (fun z => Or.inl z) (fun z => Or.inl z) _ rfl

theorem lock_dev {l : Line} (h : Devs l) (hb : l.block.blocked = true) : l.block.Stopped := by
  have key : ∀ x : Line, x.dev.ns = false → x.dev.nk = false → x.state = lockedState → x.stopDev.Stopped := by
    intro x h1 h2 h3
    refine ⟨rfl, rfl, fun k => ?_, h1, h2⟩
    simp [Line.stopDev, h3, lockedState]
  have hun : l.ncmd ≠ cmdUnlock := by
    intro hx
    rcases block_cases l with ⟨-, -, -, y⟩ | ⟨-, y⟩ | ⟨-, -, -, -, -, -, -, -, -, y, -⟩
    · exact y hx
    · rw [y] at hb; cases hb
    · exact y hx
  have hor : l.blocked = true ∨ l.ncmd = cmdLock := by
    rcases block_cases l with ⟨y, z, -⟩ | ⟨y, -⟩ | ⟨-, -, -, -, -, -, -, -, -, -, y⟩
    · rw [y, z] at hb; cases hb
    · exact absurd y hun
    · exact y
  have h0 : (0 : Nat) ≠ cmdUnlock := by decide
  have hx : ∀ x : Line, Devs x → (({ (if 0 < x.state then x.stop else x) with ncmd := 0, state := lockedState } : Line).stopDev).Stopped := by
    intro x hd
    by_cases hs : 0 < x.state
    · rw [if_pos hs]
      obtain ⟨d1, d2, -⟩ := stop_dev x hd
      exact key _ d1 d2 rfl
    · rw [if_neg hs]
      refine key _ ?_ ?_ rfl
      · by_contra z; exact hs (hd.ns (by simpa using z)).2
      · by_contra z; exact hs (hd.nk (by simpa using z)).2
  by_cases hc : l.ncmd = cmdLock
  · simp only [Line.block, if_pos hc, if_neg h0, if_true]
    exact hx { l with blocked := true, ncmd := 0 } ⟨h.ns, h.nk, h.pump, h.v, h.fin⟩
  · have hb' : l.blocked = true := by
      rcases hor with y | y
      · exact y
      · exact absurd y hc
    simp only [Line.block, if_neg hc, if_neg hun, if_pos hb']
    exact hx l h

theorem Line.Stopped.devs {x : Line} (hx : x.Stopped) : Devs x := by
  obtain ⟨h1, h2, h3, h4, h5⟩ := hx
  refine ⟨fun z => ?_, fun z => ?_, fun _ => h1, fun _ k z => ?_, fun _ => ⟨h1, fun k z => ?_⟩⟩
  · rw [h4] at z; cases z
  · rw [h5] at z; cases z
  · rw [h3 k] at z; cases z
  · rw [h3 k] at z; cases z

/-- What holds for the devices of a line when only locked lines are unlocked. -/
structure Safe (l : Line) : Prop where
  wf : Wf l
  devs : Devs l
  lock : l.blocked = true → l.Stopped

theorem Safe.block {l : Line} (h : Safe l) (hu : l.ncmd = cmdUnlock → l.blocked = true) : Safe l.block := by
  refine ⟨h.wf.block, ?_, fun hb => lock_dev h.devs hb⟩
  rcases block_cases l with ⟨hb, -⟩ | ⟨hx, hb⟩ | ⟨hb, -⟩
  · rw [hb]; exact h.devs
  · rw [hb]
    have : ({ l with blocked := false, state := if 0 < l.curstep then -1 else 0, ncmd := 0 } : Line).Stopped := h.lock (hu hx)
    exact this.devs
  · exact (lock_dev h.devs hb).devs

theorem Safe.keep {l l' : Line} (h : Safe l) (h1 : l'.state = l.state) (h2 : l'.curstep = l.curstep)
    (h3 : l'.dev = l.dev) (h4 : l'.blocked = l.blocked) : Safe l' := by
  refine ⟨⟨?_, ?_, ?_, ?_⟩, ⟨?_, ?_, ?_, ?_, ?_⟩, ?_⟩
  · rw [h2]; exact h.wf.known
  · rw [h1, h2]; exact h.wf.zero
  · rw [h1, h4]; exact h.wf.lock
  · rw [h1, h2]; exact h.wf.acid
  · rw [h1, h2, h3]; exact h.devs.ns
  · rw [h1, h2, h3]; exact h.devs.nk
  · rw [h1, h3]; exact h.devs.pump
  · rw [h1, h3]; exact h.devs.v
  · rw [h2, h3]; exact h.devs.fin
  · rw [h4, Line.Stopped, h3]; exact h.lock

theorem Safe.step {c : Cfg} {s s' : Sys n} {e : Ev n} (h : ∀ i, Safe (s.line i)) (hu : NoUnlock s e)
    (hs : c.step s e = some s') : ∀ i, Safe (s'.line i) := by
  intro j
  by_cases hj : j = e.line
  · subst hj
    cases e with
    | cmd i x =>
      simp only [Cfg.step, Option.some.injEq] at hs; subst hs; rw [Ev.line, put_self]
      exact (h i).keep rfl rfl rfl rfl
    | cycle i e =>
      have hb' := (h i).block hu
      rcases evaluate_act c s s' i e hs with ⟨hb, rfl⟩ | ⟨hb, ha⟩
      · rw [Ev.line, put_self]; exact hb'
      · obtain ⟨h1, h2⟩ := hb'.wf.act hb ha
        exact ⟨h1, hb'.devs.act hb'.wf ha, fun z => by rw [Ev.line] at z; rw [h2] at z; cases z⟩
    | select i r =>
      simp only [Cfg.step] at hs
      split at hs
      · injection hs with hs; subst hs; exact h i
      · split at hs
        · injection hs with hs; subst hs; rw [Ev.line, put_self]; exact (h i).keep rfl rfl rfl rfl
        · cases hs
    | program i p =>
      simp only [Cfg.step, Option.some.injEq] at hs; subst hs; rw [Ev.line, put_self]; exact (h i).keep rfl rfl rfl rfl
    | edit i r k v =>
      simp only [Cfg.step, Option.some.injEq] at hs; subst hs; rw [Ev.line, put_self]; exact (h i).keep rfl rfl rfl rfl
  · rw [step_other hs hj]; exact h j

theorem safe_initial (vals : Fin n → Nat → Nat → Rat) (outs : Nat → Bool) (i : Fin n) : Safe ((initial vals outs).line i) :=
  ⟨wf_initial vals outs i, devs_initial vals outs i, fun z => by simp [initial] at z⟩

theorem safe_run (c : Cfg) (vals : Fin n → Nat → Nat → Rat) (outs : Nat → Bool) (es : List (Ev n))
    (h : Along c NoUnlock (initial vals outs) es) (s : Sys n) (hs : c.run (initial vals outs) es = some s) (i : Fin n) :
    Safe (s.line i) :=
  run_inv c NoUnlock (fun s => ∀ i, Safe (s.line i)) (fun _ _ _ hp hq ht => Safe.step hq hp ht) es _ _ h
    (safe_initial vals outs) hs i

/-! ## The return pump -/

/-- The return pump of a line is off unless it washes; it was not ordered on. -/
structure Ret (l : Line) : Prop where
  ret : l.state ≤ 0 → l.dev.ret = false
  cmd : l.ncmd ≠ cmdRetOn

theorem Ret.act {c : Cfg} {s s' : Sys n} {i : Fin n} {e : Env} {l : Line} (h : Ret l) (ha : Act c s i e l s') :
    Ret (s'.line i) := by
  have hz : (0 : Nat) ≠ cmdRetOn := by decide
  cases ha
  case idle => simp only [put_self]; exact ⟨h.ret, hz⟩
  case next h1 h2 h3 => simp only [put_self]; exact ⟨fun z => absurd z (by simp), hz⟩
  case pause h1 h2 h3 => simp only [put_self]; exact ⟨fun _ => rfl, hz⟩
  case reset h1 h2 => simp only [put_self]; exact ⟨fun z => absurd z (by simp), hz⟩
  case forget h1 h2 => simp only [put_self]; exact ⟨h.ret, hz⟩
  case wrongOs h1 h2 h3 h4 => simp only [put_self]; exact ⟨fun _ => h.ret (by omega), hz⟩
  case resume h1 h2 h3 h4 h5 => simp only [put_self]; exact ⟨fun z => absurd z (by simp), hz⟩
  case noSwitch ht _ => simp only [put_self]; exact ⟨h.ret, hz⟩
  case conflict ht _ => have := ht.state; simp only [put_self]; exact ⟨fun _ => h.ret (by omega), hz⟩
  case startWrong ht _ _ => have := ht.state; simp only [put_self]; exact ⟨fun _ => h.ret (by omega), hz⟩
  case startAcid ht _ _ _ => have := ht.state; simp only [put_self]; exact ⟨fun _ => h.ret (by omega), hz⟩
  case started outs l' ht h1 h2 h3 h4 h5 =>
    have hs : l'.state = 1 := by rw [h5]; split <;> rfl
    simp only [put_self]
    exact ⟨fun z => absurd z (by simp [hs]), hz⟩
  case ret b h1 h2 =>
    simp only [put_self]
    cases b with
    | true => exact absurd h1 h.cmd
    | false => exact ⟨fun _ => by simp [Line.setRet], hz⟩
  case go h1 h2 h3 => simp only [put_self]; exact ⟨fun z => by simp only at z; omega, h.cmd⟩
  case done v p r x l1 l' h1 h2 h3 h4 h5 h6 =>
    have h7 : l'.core = (l1.goTo x e.opt).core := by
      rw [h6]
      split
      · simp
      · rfl
    have e1 : l'.state = l.state := (congrArg Core.state h7).trans (by rw [h5]; simp [Line.core])
    have e2 : l'.ncmd = l.ncmd := (congrArg Core.ncmd h7).trans (by rw [h5]; simp [Line.core])
    simp only [put_self]
    exact ⟨fun z => by omega, by rw [e2]; exact h.cmd⟩
  case fail v p r x h1 h2 h3 => simp only [put_self]; exact ⟨fun _ => rfl, h.cmd⟩
  case finish outs h1 h2 h3 h4 => simp only [put_self]; exact ⟨fun _ => rfl, h.cmd⟩
  case auto h1 h2 h3 => simp only [put_self]; exact ⟨fun z => absurd z (by simp), by simpa using h.cmd⟩

/-- Safe and with the return pump off. -/
structure Quiet (l : Line) : Prop where
  safe : Safe l
  ret : Ret l

theorem Quiet.block {l : Line} (h : Quiet l) (hu : l.ncmd = cmdUnlock → l.blocked = true) : Quiet l.block := by
  refine ⟨h.safe.block hu, ?_, ?_⟩
  · intro z
    rcases block_cases l with ⟨hb, -⟩ | ⟨hx, hb⟩ | ⟨hb, -⟩
    · rw [hb] at z ⊢; exact h.ret.ret z
    · rw [hb]; exact (h.safe.lock (hu hx)).2.1
    · exact (lock_dev h.safe.devs hb).2.1
  · rcases block_cases l with ⟨hb, -⟩ | ⟨hx, hb⟩ | ⟨-, -, -, -, -, -, -, -, hb, -⟩
    · rw [hb]; exact h.ret.cmd
    · rw [hb]; simp [cmdRetOn]
    · rw [hb]; decide

theorem Quiet.step {c : Cfg} {s s' : Sys n} {e : Ev n} {i : Fin n} (h : Quiet (s.line i)) (hu : NoUnlock s e)
    (hr : Without i [cmdRetOn] s e) (hs : c.step s e = some s') : Quiet (s'.line i) := by
  by_cases hj : i = e.line
  · subst hj
    cases e with
    | cmd i x =>
      simp only [Cfg.step, Option.some.injEq] at hs; subst hs; rw [Ev.line, put_self]
      exact ⟨h.safe.keep rfl rfl rfl rfl, h.ret.ret, by simpa using hr rfl⟩
    | cycle i e =>
      have hb' := Quiet.block h hu
      rcases evaluate_act c s s' i e hs with ⟨hb, rfl⟩ | ⟨hb, ha⟩
      · rw [Ev.line, put_self]; exact hb'
      · obtain ⟨h1, h2⟩ := hb'.safe.wf.act hb ha
        exact ⟨⟨h1, hb'.safe.devs.act hb'.safe.wf ha, fun z => by rw [Ev.line] at z; rw [h2] at z; cases z⟩,
          hb'.ret.act ha⟩
    | select i r =>
      simp only [Cfg.step] at hs
      split at hs
      · injection hs with hs; subst hs; exact h
      · split at hs
        · injection hs with hs; subst hs; rw [Ev.line, put_self]
          exact ⟨h.safe.keep rfl rfl rfl rfl, h.ret.ret, h.ret.cmd⟩
        · cases hs
    | program i p =>
      simp only [Cfg.step, Option.some.injEq] at hs; subst hs; rw [Ev.line, put_self]
      exact ⟨h.safe.keep rfl rfl rfl rfl, h.ret.ret, h.ret.cmd⟩
    | edit i r k v =>
      simp only [Cfg.step, Option.some.injEq] at hs; subst hs; rw [Ev.line, put_self]
      exact ⟨h.safe.keep rfl rfl rfl rfl, h.ret.ret, h.ret.cmd⟩
  · rw [step_other hs hj]; exact h

theorem quiet_run (c : Cfg) (vals : Fin n → Nat → Nat → Rat) (outs : Nat → Bool) (es : List (Ev n)) (i : Fin n)
    (h : Along c NoUnlock (initial vals outs) es) (h' : Along c (Without i [cmdRetOn]) (initial vals outs) es) (s : Sys n)
    (hs : c.run (initial vals outs) es = some s) : Quiet (s.line i) :=
  run_inv c (fun s e => NoUnlock s e ∧ Without i [cmdRetOn] s e) (fun s => Quiet (s.line i))
    (fun _ _ _ hp hq ht => hq.step hp.1 hp.2 ht) es _ _ (h.and h')
    ⟨safe_initial vals outs i, fun _ => rfl, by simp [initial, cmdRetOn]⟩ hs

/-! ## Staying stopped -/

/-- A line that was stopped and to which nothing was ordered that could start it. -/
structure Halted (z : Int) (l : Line) : Prop where
  neg : z < 0
  noAuto : z ≠ -19 ∧ z ≠ -20
  state : l.state = z ∨ l.state = lockedState
  cmd : l.ncmd ∉ [cmdNext, cmdEvaluate, cmdReset, cmdUnlock]

theorem Halted.block {l : Line} {z : Int} (h : Halted z l) : Halted z l.block := by
  have hc := h.cmd
  rcases block_cases l with ⟨hb, -⟩ | ⟨hx, hb⟩ | ⟨-, h1, -, -, -, -, -, -, hn, -⟩
  · rw [hb]; exact h
  · rw [hx] at hc; exact absurd hc (by decide)
  · exact ⟨h.neg, h.noAuto, Or.inr h1, by rw [hn]; decide⟩

theorem Halted.act {c : Cfg} {s s' : Sys n} {i : Fin n} {e : Env} {l : Line} {z : Int} (h : Halted z l) (ha : Act c s i e l s') :
    Halted z (s'.line i) := by
  have hc := h.cmd
  have hn : l.state < 0 := by have := h.neg; rcases h.state with x | x <;> rw [x] <;> first | exact this | decide
  have hz : (0 : Nat) ∉ [cmdNext, cmdEvaluate, cmdReset, cmdUnlock] := by decide
  simp only [List.mem_cons, List.not_mem_nil, or_false, not_or] at hc
  cases ha
  case idle => simp only [put_self]; exact ⟨h.neg, h.noAuto, h.state, hz⟩
  case next h1 h2 h3 => exact absurd h1 hc.1
  case reset h1 h2 => exact absurd h1 hc.2.2.1
  case forget h1 h2 => exact absurd h1 hc.2.2.1
  case wrongOs h1 h2 h3 h4 => exact absurd h1 hc.2.1
  case resume h1 h2 h3 h4 h5 => exact absurd h1 hc.2.1
  case noSwitch ht _ => exact absurd ht.cmd hc.2.1
  case conflict ht _ => exact absurd ht.cmd hc.2.1
  case startWrong ht _ _ => exact absurd ht.cmd hc.2.1
  case startAcid ht _ _ _ => exact absurd ht.cmd hc.2.1
  case started ht _ _ _ _ _ => exact absurd ht.cmd hc.2.1
  case ret b h1 h2 => simp only [put_self]; exact ⟨h.neg, h.noAuto, by simpa using h.state, hz⟩
  case auto h1 h2 h3 => have := h.noAuto; have h5 := h.state; simp only [lockedState] at h5; omega
  all_goals omega

theorem Halted.step {c : Cfg} {s s' : Sys n} {e : Ev n} {i : Fin n} {z : Int} (h : Halted z (s.line i))
    (hr : Without i [cmdNext, cmdEvaluate, cmdReset, cmdUnlock] s e) (hs : c.step s e = some s') : Halted z (s'.line i) := by
  by_cases hj : i = e.line
  · subst hj
    cases e with
    | cmd i x => simp only [Cfg.step, Option.some.injEq] at hs; subst hs; rw [Ev.line, put_self]; exact ⟨h.neg, h.noAuto, h.state, hr rfl⟩
    | cycle i e =>
      rcases evaluate_act c s s' i e hs with ⟨hb, rfl⟩ | ⟨hb, ha⟩
      · rw [Ev.line, put_self]; exact Halted.block h
      · exact (Halted.block h).act ha
    | select i r =>
      simp only [Cfg.step] at hs
      split at hs
      · injection hs with hs; subst hs; exact h
      · split at hs
        · injection hs with hs; subst hs; rw [Ev.line, put_self]; exact ⟨h.neg, h.noAuto, h.state, h.cmd⟩
        · cases hs
    | program i p => simp only [Cfg.step, Option.some.injEq] at hs; subst hs; rw [Ev.line, put_self]; exact ⟨h.neg, h.noAuto, h.state, h.cmd⟩
    | edit i r k v => simp only [Cfg.step, Option.some.injEq] at hs; subst hs; rw [Ev.line, put_self]; exact ⟨h.neg, h.noAuto, h.state, h.cmd⟩
  · rw [step_other hs hj]; exact h

end Ptusa.Cip
