import Verif.CipFlow.LemmasSort

/-!
# Helper lemmas: steps that await the return
-/
namespace Ptusa.CipFlow

open Ptusa.Cip (Outcome StepErr Opt knownSteps)

def isFrom : Op → Bool
  | .fromObject _ _ => true
  | _ => false

theorem from_op {x : Int} (h : AwaitsReturn x) (i n a r : Bool) : ∃ s d, op i n a r x = some (.fromObject s d) ∧
    (x = 24 → need s d = some (.caustic, true)) ∧ (x = 44 → need s d = some (.acid, true)) ∧
    (x = 35 → need s d = some (.caustic, false)) ∧ (x = 55 → need s d = some (.acid, false)) := by
  rcases h with rfl | rfl | rfl | rfl | rfl | rfl | rfl | rfl <;>
    cases n <;> cases a <;> cases r <;> exact ⟨_, _, rfl, by decide, by decide, by decide, by decide⟩

theorem from_not_last {x : Int} (h : AwaitsReturn x) : x ≠ 555 ∧ ∀ b, Cip.succ x b ≠ none := by
  rcases h with rfl | rfl | rfl | rfl | rfl | rfl | rfl | rfl <;> refine ⟨by decide, ?_⟩ <;> decide

theorem setRet_retOk (l : Line) (e : Env) (b : Bool) : (l.setRet e b).retOk = l.retOk := by
  unfold Line.setRet; split <;> rfl

theorem source_retOk (l : Line) (e : Env) (s : Src) : (l.source e s).1.retOk = l.retOk := by
  cases s
  · rfl
  · simp only [Line.source, Line.fromWaterTank]
    cases e.waterEmpty <;> rfl
  · rfl
  · rfl

theorem sortRR_retOk (l : Line) (c : Cfg) (e : Env) (t : Tank) (b : Bool) : (l.sortRR c e t b).retOk = l.retOk := by
  unfold Line.sortRR; split <;> rfl

theorem resort_retOk (l : Line) (c : Cfg) (e : Env) (s : Src) : (l.resort c e s).retOk = l.retOk := by
  cases s
  · rfl
  · rfl
  · exact sortRR_retOk ..
  · exact sortRR_retOk ..

theorem dest_retOk (l : Line) (c : Cfg) (e : Env) (b : Bool) (d : Dest) : (l.dest c e b d).retOk = l.retOk := by
  cases d
  · rfl
  · rfl
  · exact sortRR_retOk ..
  · exact sortRR_retOk ..

theorem checkReturn_retOk (l : Line) (e : Env) (n : Option (Tank × Bool)) :
    (l.checkReturn e n).1.retOk = (l.retOk || (e.vol && e.fl)) := by
  unfold Line.checkReturn
  dsimp only
  cases e.vol
  · simp
  · rw [if_pos rfl]
    split
    · simp
    · split <;> simp

theorem fromObject_retOk (l : Line) (c : Cfg) (e : Env) (s : Src) (d : Dest) :
    (l.fromObject c e s d).1.retOk = (l.retOk || (e.vol && e.fl)) := by
  unfold Line.fromObject
  dsimp only
  have h0 : (if e.retWish then l.setRet e true else l).retOk = l.retOk := by
    split
    · exact setRet_retOk ..
    · rfl
  generalize (if e.retWish then l.setRet e true else l) = l0 at h0
  have h1 := checkReturn_retOk l0 e (need s d)
  rw [h0] at h1
  split
  · next h => rw [h] at h1; exact h1
  · next l1 h =>
    rw [h] at h1
    have h2 := source_retOk l1 e s
    rw [h1] at h2
    split
    · next h => rw [h] at h2; exact h2
    · next h => rw [h] at h2; rw [dest_retOk, resort_retOk]; exact h2

/-- When such a step ends. -/
theorem fromObject_done {l : Line} {c : Cfg} {e : Env} {s : Src} {d : Dest} {p : Int}
    (h : (l.fromObject c e s d).2 = .done p) :
    e.vol = true ∧ (l.retOk = true ∨ e.fl = true) ∧ e.fits (need s d) = true := by
  unfold Line.fromObject at h
  dsimp only at h
  have h0 : (if e.retWish then l.setRet e true else l).retOk = l.retOk := by
    split
    · exact setRet_retOk ..
    · rfl
  generalize (if e.retWish then l.setRet e true else l) = l0 at h0 h
  split at h
  · next l1 o h1 =>
    dsimp only at h
    subst h
    unfold Line.checkReturn at h1
    dsimp only at h1
    split at h1
    · next hv =>
      split at h1
      · simp at h1
      · split at h1
        · split at h1 <;> simp at h1
        · obtain ⟨-, h1⟩ := Prod.mk.inj h1
          split at h1
          · next hx =>
            simp only [Bool.and_eq_true, Bool.or_eq_true, h0] at hx
            exact ⟨hv, hx.1, hx.2⟩
          · simp at h1
    · simp at h1
  · split at h <;> simp at h

/-- What `return_ok` remembers. -/
def RetInv (c : Cfg) (evs : List Ev) : Prop :=
  AwaitsReturn (run c evs).step → (run c evs).retOk = true →
    ∃ pre q e0, evs = pre ++ q ∧ Visit c pre q (run c evs).step ∧ Ev.cycle e0 ∈ q ∧ e0.vol = true ∧ e0.fl = true

theorem ret_extend {c : Cfg} {evs : List Ev} {ev : Ev}
    (h : ∃ pre q e0, evs = pre ++ q ∧ Visit c pre q (run c evs).step ∧ Ev.cycle e0 ∈ q ∧ e0.vol = true ∧ e0.fl = true)
    (hst : (run c (evs ++ [ev])).step = (run c evs).step) :
    ∃ pre q e0, evs ++ [ev] = pre ++ q ∧ Visit c pre q (run c (evs ++ [ev])).step ∧ Ev.cycle e0 ∈ q ∧ e0.vol = true ∧
      e0.fl = true := by
  obtain ⟨pre, q, e0, he, hv, hm, h1, h2⟩ := h
  refine ⟨pre, q ++ [ev], e0, by rw [he]; simp, ?_, by simp [hm], h1, h2⟩
  rw [hst]
  refine Visit.snoc hv ?_
  rw [← hst, he]
  simp

theorem ret_now {c : Cfg} {evs : List Ev} {e : Env} (hst : (run c (evs ++ [.cycle e])).step = (run c evs).step)
    (hv : e.vol = true) (hf : e.fl = true) :
    ∃ pre q e0, evs ++ [.cycle e] = pre ++ q ∧ Visit c pre q (run c (evs ++ [.cycle e])).step ∧ Ev.cycle e0 ∈ q ∧
      e0.vol = true ∧ e0.fl = true := by
  refine ⟨evs, [.cycle e], e, rfl, ?_, by simp, hv, hf⟩
  intro q hq
  rcases List.prefix_cons_iff.1 hq with rfl | ⟨q', rfl, hq'⟩
  · rw [hst]; simp
  · rw [List.prefix_nil.1 hq']

theorem initStep_retOk {l : Line} (h : AwaitsReturn l.step) (c : Cfg) (e : Env) (again : Bool) :
    (l.initStep c e again).retOk = (again && l.retOk) := by
  obtain ⟨s, d, ho, -⟩ := from_op h true e.noTank (l.prog.testBit 4) e.rinse
  rw [initStep_eq c e again ho]
  simp only [Line.initOp]
  rw [setRet_retOk]
  cases again <;> rfl

theorem pids_retOk (l : Line) (e : Env) : (l.pids e).retOk = l.retOk := by
  obtain ⟨_, _, _, _, h⟩ := pids_eq l e
  rw [h]

theorem retInv_run (c : Cfg) (evs : List Ev) : RetInv c evs := by
  induction evs using List.reverseRecOn with
  | nil => intro h; simp [run, AwaitsReturn] at h
  | append_singleton evs ev ih =>
    intro ha hr
    have hi := inv_run c evs
    have hev := next_evol hi ev
    rw [← run_snoc] at hev
    cases hev with
    | stopped _ h =>
      rw [h.1] at ha
      exact ret_extend (ih ha (by rw [← h.2]; exact hr)) h.1
    | quiet h1 h2 =>
      rw [h2.step] at ha
      exact ret_extend (ih ha (by rw [← h2.retOk]; exact hr)) h2.step
    | init e he m again hk hag hm hs h =>
      have hst : (run c (evs ++ [ev])).step = m.step := by rw [h.step, initStep_step]
      rw [hst] at ha
      rw [h.retOk, initStep_retOk ha] at hr
      simp only [Bool.and_eq_true] at hr
      have hv := hag hr.1
      rw [hv.step] at ha hst
      exact ret_extend (ih ha (by rw [← hv.retOk]; exact hr.2)) hst
    | cycle e he hw h =>
      subst he
      have hc := cycle_cases (c := c) hi.known e
      rw [← h] at hc
      have key (l' : Line) (hl : l' = run c (evs ++ [.cycle e])) (hst : l'.step = (run c evs).step)
          (hx : l'.retOk = (run c evs).retOk ∨ ∃ o, op false e.noTank ((run c evs).prog.testBit 4) e.rinse
            (run c evs).step = some o ∧ l'.retOk = (((run c evs).pids e).doOp c e o).1.retOk) :
          ∃ pre q e0, evs ++ [.cycle e] = pre ++ q ∧ Visit c pre q (run c (evs ++ [.cycle e])).step ∧
            Ev.cycle e0 ∈ q ∧ e0.vol = true ∧ e0.fl = true := by
        subst hl
        rw [hst] at ha
        rcases hx with hx | ⟨o, ho, hx⟩
        · exact ret_extend (ih ha (by rw [← hx]; exact hr)) hst
        · obtain ⟨s, d, ho', -⟩ := from_op ha false e.noTank ((run c evs).prog.testBit 4) e.rinse
          rw [ho'] at ho
          obtain rfl := Option.some.inj ho
          rw [hx, show (((run c evs).pids e).doOp c e (.fromObject s d)).1.retOk = _ from fromObject_retOk .., pids_retOk,
            Bool.or_eq_true, Bool.and_eq_true] at hr
          rcases hr with hr | hr
          · exact ret_extend (ih ha hr) hst
          · exact ret_now hst hr.1 hr.2
      cases hc with
      | wait h5 h' =>
        refine key _ rfl (by rw [h', pids_step]) (.inl (by rw [h', pids_retOk]))
      | finish h5 h' => rw [h'] at ha; simp [Line.finish, AwaitsReturn] at ha
      | go _ he o ho hd h' =>
        obtain ⟨r, h'⟩ := h'
        refine key _ rfl ?_ (.inr ⟨o, ho, by rw [h']⟩)
        rw [h']
        exact (same_doOp ((run c evs).pids e) c e o).step.trans (pids_step _ e)
      | done h5 he o p ho hd h' =>
        split at h'
        · have hst : (run c (evs ++ [.cycle e])).step =
              ((((run c evs).pids e).doOp c e o).1.goTo p e.opt).step := by rw [h', initStep_step]
          rw [hst] at ha
          rw [h', initStep_retOk ha] at hr
          simp at hr
        · next hx =>
          exfalso
          simp only [not_not] at hx
          have h2 : (((run c evs).pids e).doOp c e o).1.step = (run c evs).step :=
            (same_doOp ((run c evs).pids e) c e o).step.trans (pids_step _ e)
          rw [h', hx] at ha
          refine goTo_ne (l := (((run c evs).pids e).doOp c e o).1) p e.opt ?_ ?_ ?_ (by rw [hx, h2])
          · rw [h2]; exact hi.known
          · rw [h2]; exact h5
          · rw [h2]; exact (from_not_last ha).2
      | fail h5 hs hp hv hst hr' => exact key _ rfl hst hr'

end Ptusa.CipFlow
