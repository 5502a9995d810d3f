import Verif.CipFlow.LemmasRun

/-!
# Helper lemmas: one cycle of a washing line, and its sorting
-/
namespace Ptusa.CipFlow

open Ptusa.Cip (Outcome StepErr Opt knownSteps)

/-! ## A washing cycle -/

theorem block_washing {l : Line} (h : l.Washing) : l.block = l := by
  obtain ⟨_, h1, h2⟩ := h
  simp [Line.block, h1, h2, Cip.cmdLock, Cip.cmdUnlock]

theorem next_washing {c : Cfg} {l : Line} (h : l.Washing) (e : Env) : l.next c (.cycle e) = l.progress c e := by
  simp [Line.next, Line.evaluate, block_washing h, h.2.2, h.2.1, h.1]

/-- The ways a washing cycle can go. -/
inductive Cycle (c : Cfg) (e : Env) (l l' : Line) : Prop where
  | wait (h5 : l.step = 555) (h : l' = l.pids e)
  | finish (h5 : l.step = 555) (h : l' = (l.pids e).finish)
  | go (h5 : l.step ≠ 555) (he : e.err = none) (o : Op)
      (ho : op false e.noTank (l.prog.testBit 4) e.rinse l.step = some o)
      (hd : ((l.pids e).doOp c e o).2 = .go)
      (h : ∃ r, l' = { ((l.pids e).doOp c e o).1 with ret := r })
  | done (h5 : l.step ≠ 555) (he : e.err = none) (o : Op) (p : Int)
      (ho : op false e.noTank (l.prog.testBit 4) e.rinse l.step = some o)
      (hd : ((l.pids e).doOp c e o).2 = .done p)
      (h : l' = if (((l.pids e).doOp c e o).1.goTo p e.opt).step ≠ l.step
        then (((l.pids e).doOp c e o).1.goTo p e.opt).initStep c e false
        else ((l.pids e).doOp c e o).1.goTo p e.opt)
  | fail (h5 : l.step ≠ 555) (hs : l'.state < 0) (hp : l'.np = false) (hv : ∃ v b, l'.v = V.kept v b)
      (hst : l'.step = l.step)
      (hr : l'.retOk = l.retOk ∨ ∃ o, op false e.noTank (l.prog.testBit 4) e.rinse l.step = some o ∧
        l'.retOk = ((l.pids e).doOp c e o).1.retOk)

theorem code_neg (x : StepErr) : x.code < 0 := by cases x <;> simp [StepErr.code]

theorem setRet_eq (l : Line) (e : Env) (b : Bool) : ∃ r, l.setRet e b = { l with ret := r } := by
  unfold Line.setRet
  split
  · exact ⟨l.ret, rfl⟩
  · exact ⟨_, rfl⟩

theorem cycle_cases {c : Cfg} {l : Line} (hk : l.step ∈ knownSteps) (e : Env) : Cycle c e l (l.progress c e) := by
  unfold Line.progress
  dsimp only
  rw [pids_step]
  split
  · next h5 =>
    split
    · exact .finish h5 rfl
    · exact .wait h5 rfl
  · next h5 =>
    have hsm := same_doStep (l.pids e) c e
    cases he : e.err with
    | some x =>
      have hd : (l.pids e).doStep c e = (l.pids e, .fail x) := by simp [Line.doStep, he]
      rw [hd]
      obtain ⟨_, _, _, _, hp⟩ := pids_eq l e
      exact .fail h5 (code_neg x) rfl ⟨_, _, rfl⟩ (by simp [Line.stop, Line.stopDev])
        (.inl (by rw [hp]; rfl))
    | none =>
      obtain ⟨o, ho, -⟩ := op_some hk false e.noTank (l.prog.testBit 4) e.rinse
      have hd : (l.pids e).doStep c e = (l.pids e).doOp c e o := by simp [Line.doStep, he, ho]
      rw [hd] at hsm ⊢
      rcases hx : (l.pids e).doOp c e o with ⟨l1, oc⟩
      rw [hx] at hsm
      cases oc with
      | go =>
        refine .go h5 he o ho (by rw [hx]) ?_
        rw [hx]
        dsimp only
        split
        · exact setRet_eq l1 e true
        · exact ⟨l1.ret, rfl⟩
      | done p =>
        refine .done h5 he o p ho (by rw [hx]) ?_
        rw [hx]
        dsimp only
        rw [hsm.step, pids_step]
      | fail x =>
        refine .fail h5 (code_neg x) rfl ⟨l1.v, _, rfl⟩ ?_ (.inr ⟨o, ho, by rw [hx]; rfl⟩)
        have := hsm.step
        simpa [Line.stop, Line.stopDev] using this

theorem goTo_ne {l : Line} (p : Int) (o : Opt) (hk : l.step ∈ knownSteps) (h5 : l.step ≠ 555)
    (hs : ∀ b, Cip.succ l.step b ≠ none) : (l.goTo p o).step ≠ l.step := by
  unfold Line.goTo
  split
  · next s hx => exact (Cip.within_known _ _ _ _ hk h5 s hx).2.2.2
  · next hx => exact absurd hx (hs _)

/-- Steps that are not the last of their part of the program. -/
theorem not_last : ∀ x ∈ knownSteps, x ≠ 555 →
    (x = 22 ∨ x = 24 ∨ x = 33 ∨ x = 34 ∨ x = 35 ∨ x = 42 ∨ x = 44 ∨ x = 53 ∨ x = 54 ∨ x = 55 ∨ x = 108 ∨ x = 118 ∨
      x = 7 ∨ x = 64 ∨ x = 74 ∨ x = 85) →
    ∀ b, Cip.succ x b ≠ none := by decide +kernel

/-! ## Any event -/

/-- The same step with the same valves, pump and memory of the step. -/
structure View (l l' : Line) : Prop where
  step : l'.step = l.step
  v : l'.v = l.v
  np : l'.np = l.np
  force : l'.force = l.force
  sortAt : l'.sortAt = l.sortAt
  retOk : l'.retOk = l.retOk

theorem View.refl (l : Line) : View l l := ⟨rfl, rfl, rfl, rfl, rfl, rfl⟩

theorem view_setRet (l : Line) (e : Env) (b : Bool) : View l (l.setRet e b) := by
  unfold Line.setRet; split <;> exact ⟨rfl, rfl, rfl, rfl, rfl, rfl⟩

/-- The ways an event can go: the line is stopped, nothing changes, a step is set up (again or for the first time), or a
washing cycle. -/
inductive Evol (c : Cfg) (l : Line) (ev : Ev) (l' : Line) : Prop where
  | stopped (h : l'.state ≤ 0) (hr : l'.step = l.step ∧ l'.retOk = l.retOk)
      (hp : View l l' ∨ l'.np = false ∧ ∃ v b, l'.v = V.kept v b)
  | quiet (hs : l'.state = l.state) (h : View l l')
  | init (e : Env) (he : ev = .cycle e) (m : Line) (again : Bool) (hk : m.step ∈ knownSteps)
      (ha : again = true → View l m) (hm : m.state = 0 ∨ m.state = 1) (hs : l'.state = 1)
      (h : View (m.initStep c e again) l')
  | cycle (e : Env) (he : ev = .cycle e) (hw : l.Washing) (h : l' = l.progress c e)

theorem block_cases (l : Line) :
    (l.block.blocked = true ∧ l.block.state < 0 ∧ l.block.np = false ∧ (∃ v b, l.block.v = V.kept v b) ∧
      l.block.step = l.step ∧ l.block.retOk = l.retOk) ∨
      (l.block.blocked = false ∧
        (l.block = l ∨ l.block = { l with blocked := false, state := if 0 < l.step then -1 else 0, ncmd := 0 })) := by
  by_cases h1 : l.ncmd = Cip.cmdLock
  · have he : l.block = ({ (if 0 < l.state then ({ l with blocked := true, ncmd := 0 } : Line).stop
        else { l with blocked := true, ncmd := 0 }) with ncmd := 0, state := Cip.lockedState } : Line).stopDev := by
      simp [Line.block, h1, Cip.cmdUnlock]
    rw [he]
    refine .inl ⟨?_, by simp [Line.stopDev, Cip.lockedState], rfl, ⟨_, _, rfl⟩, ?_⟩
    · split <;> rfl
    · split <;> exact ⟨rfl, rfl⟩
  · by_cases h2 : l.ncmd = Cip.cmdUnlock
    · have he : l.block = { l with blocked := false, state := if 0 < l.step then -1 else 0, ncmd := 0 } := by
        simp [Line.block, h2, Cip.cmdUnlock, Cip.cmdLock]
      rw [he]
      exact .inr ⟨rfl, .inr rfl⟩
    · cases hb : l.blocked with
      | true =>
        have he : l.block = ({ (if 0 < l.state then l.stop else l) with
            ncmd := 0, state := Cip.lockedState } : Line).stopDev := by
          simp [Line.block, h1, h2, hb]
        rw [he]
        refine .inl ⟨?_, by simp [Line.stopDev, Cip.lockedState], rfl, ⟨_, _, rfl⟩, ?_⟩
        · split <;> simp [Line.stopDev, Line.stop, hb]
        · split <;> exact ⟨rfl, rfl⟩
      | false =>
        have he : l.block = l := by simp [Line.block, h1, h2, hb]
        rw [he]
        exact .inr ⟨hb, .inl rfl⟩

theorem commands_evol {c : Cfg} {l : Line} (hi : Inv c l) (e : Env) :
    Evol c l (.cycle e) { l.commands c e with ncmd := 0 } := by
  have hq : Evol c l (.cycle e) { l with ncmd := 0 } := .quiet rfl ⟨rfl, rfl, rfl, rfl, rfl, rfl⟩
  unfold Line.commands
  split
  · split
    · next hx =>
      exact .init e rfl { l.goTo 0 e.opt with state := 1 } false (goTo_known l 0 e.opt hi.known hx.2) (by simp)
        (.inr rfl) (by dsimp only; rw [initStep_state]) ⟨rfl, rfl, rfl, rfl, rfl, rfl⟩
    · exact hq
  split
  · split
    · exact .stopped (by simp) ⟨rfl, rfl⟩ (.inr ⟨rfl, ⟨_, _, rfl⟩⟩)
    · exact hq
  split
  · split
    · exact .init e rfl { l.stop with step := 555 } false (by simp [knownSteps]) (by simp)
        (.inl rfl) rfl ⟨rfl, rfl, rfl, rfl, rfl, rfl⟩
    · exact .quiet rfl ⟨rfl, rfl, rfl, rfl, rfl, rfl⟩
  split
  · split
    · split
      · exact hq
      split
      · next hs _ _ => exact .stopped (by simp [Cip.errWrongOs]) ⟨rfl, rfl⟩ (.inl ⟨rfl, rfl, rfl, rfl, rfl, rfl⟩)
      split
      · exact .init e rfl { l with state := 1 } true hi.known (fun _ => ⟨rfl, rfl, rfl, rfl, rfl, rfl⟩)
          (.inr rfl) (by dsimp only; rw [initStep_state]) ⟨rfl, rfl, rfl, rfl, rfl, rfl⟩
      · exact hq
    · split
      · next hx =>
        unfold Line.begin
        split
        · exact hq
        · exact .stopped (by simp [Cip.errWrongOs]) ⟨rfl, rfl⟩ (.inl ⟨rfl, rfl, rfl, rfl, rfl, rfl⟩)
        · exact .stopped (by simp [Cip.errConflict]) ⟨rfl, rfl⟩ (.inl ⟨rfl, rfl, rfl, rfl, rfl, rfl⟩)
        · exact .stopped (by simp [Cip.errAcid]) ⟨rfl, rfl⟩ (.inl ⟨rfl, rfl, rfl, rfl, rfl, rfl⟩)
        · next car _ =>
          cases car
          · exact .init e rfl { l with state := 1 } false hi.known (by simp)
              (.inr rfl) (by dsimp only; rw [if_neg (by simp), initStep_state]) ⟨rfl, rfl, rfl, rfl, rfl, rfl⟩
          · exact .init e rfl (({ l with state := 1 } : Line).load e.opt) false (Cip.start_known _ _ _) (by simp)
              (.inr rfl) (by dsimp only; rw [if_pos rfl, initStep_state]; rfl) ⟨rfl, rfl, rfl, rfl, rfl, rfl⟩
      · exact hq
  have hr (b : Bool) : Evol c l (.cycle e)
      { { ({ l with over := false } : Line).setRet e b with over := true } with ncmd := 0 } := by
    have := view_setRet { l with over := false } e b
    exact .quiet (by simp) ⟨this.1, this.2, this.3, this.4, this.5, this.6⟩
  split
  · split
    · exact hr true
    · exact hq
  split
  · split
    · exact hr false
    · exact hq
  · exact hq

theorem next_evol {c : Cfg} {l : Line} (hi : Inv c l) (ev : Ev) : Evol c l ev (l.next c ev) := by
  cases ev with
  | cmd n => exact .quiet rfl ⟨rfl, rfl, rfl, rfl, rfl, rfl⟩
  | program p => exact .quiet rfl ⟨rfl, rfl, rfl, rfl, rfl, rfl⟩
  | cycle e =>
    simp only [Line.next]
    unfold Line.evaluate
    dsimp only
    rcases block_cases l with ⟨hb, hs, hn, hv, hr⟩ | ⟨hb, h | h⟩
    · rw [if_pos hb]
      exact .stopped hs.le hr (.inr ⟨hn, hv⟩)
    · rw [h] at hb ⊢
      rw [if_neg (by simp [hb])]
      split
      · exact commands_evol hi e
      next hn =>
      simp only [not_not] at hn
      split
      · next hs => exact .cycle e rfl ⟨hs, hn, hb⟩ rfl
      split
      · exact .init e rfl { l with state := 1 } true hi.known (fun _ => ⟨rfl, rfl, rfl, rfl, rfl, rfl⟩) (.inr rfl)
          (by rw [initStep_state]) ⟨rfl, rfl, rfl, rfl, rfl, rfl⟩
      · exact .quiet rfl ⟨rfl, rfl, rfl, rfl, rfl, rfl⟩
    · rw [h]
      dsimp only
      have hs : (if 0 < l.step then (-1 : Int) else 0) ≤ 0 := by split <;> omega
      have hs' : ¬((if 0 < l.step then (-1 : Int) else 0) = -20 ∨ (if 0 < l.step then (-1 : Int) else 0) = -19) := by
        split <;> omega
      rw [if_neg (by simp), if_neg (by simp), if_neg (by omega), if_neg (by tauto)]
      exact .stopped hs ⟨rfl, rfl⟩ (.inl ⟨rfl, rfl, rfl, rfl, rfl, rfl⟩)

end Ptusa.CipFlow
