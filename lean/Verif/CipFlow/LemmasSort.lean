import Verif.CipFlow.LemmasCycle

/-!
# Helper lemmas: sorting of the return
-/
namespace Ptusa.CipFlow

open Ptusa.Cip (Outcome StepErr Opt knownSteps)

/-- What a cycle of a sorting step does: it sorts now, or leaves all as it was because it is too soon. -/
def Sorts (t : Tank) (e : Env) (l l' : Line) : Prop :=
  l'.force = false ∧ l'.sortAt = e.now ∧ (l'.v.back t = true → e.cmin t ≤ e.conc t ∧ e.high t = false) ∨
  l'.force = l.force ∧ l'.sortAt = l.sortAt ∧ l'.v.back t = l.v.back t ∧ l.force = false ∧
    Time.deltaMs e.now l.sortAt < 3000

/-- The fields the sorting reads are the same. -/
def SameSort (t : Tank) (l l' : Line) : Prop :=
  l'.force = l.force ∧ l'.sortAt = l.sortAt ∧ l'.v.back t = l.v.back t

theorem SameSort.trans {t : Tank} {a b d : Line} (h : SameSort t a b) (h' : SameSort t b d) : SameSort t a d :=
  ⟨h'.1.trans h.1, h'.2.1.trans h.2.1, h'.2.2.trans h.2.2⟩

theorem Sorts.of_same {t : Tank} {e : Env} {a b d : Line} (h : SameSort t a b) (h' : Sorts t e b d) : Sorts t e a d := by
  rcases h' with h' | ⟨h1, h2, h3, h4, h5⟩
  · exact .inl h'
  · exact .inr ⟨h1.trans h.1, h2.trans h.2.1, h3.trans h.2.2, by rw [← h.1]; exact h4, by rw [← h.2.1]; exact h5⟩

theorem sorts_sortRR (t : Tank) (c : Cfg) (e : Env) (l : Line) : Sorts t e l (l.sortRR c e t false) := by
  unfold Line.sortRR
  split
  · next h => exact .inr ⟨rfl, rfl, rfl, h.2, h.1⟩
  · refine .inl ⟨rfl, rfl, ?_⟩
    dsimp only
    intro hb
    have hw : way (e.conc t) (e.cmin t) (e.cdrain t)
        ((l.full || e.high t && !false) && !decide (20000 < Time.deltaMs e.now
          (if (e.high t && !false) = true then e.now else l.fullAt))) = .tank := by
      generalize way _ _ _ _ = w at hb
      cases w
      · rfl
      · cases t <;> simp [V.sort, V.back] at hb
      · cases t <;> simp [V.sort, V.back] at hb
    generalize hf : ((l.full || e.high t && !false) && !decide (20000 < Time.deltaMs e.now
      (if (e.high t && !false) = true then e.now else l.fullAt))) = full at hw
    unfold way at hw
    split at hw
    · next hx =>
      refine ⟨hx.1, ?_⟩
      cases hh : e.high t with
      | false => rfl
      | true => simp [hx.2, hh, Time.deltaMs] at hf
    · split at hw <;> simp at hw

theorem sameSort_setRet (t : Tank) (l : Line) (e : Env) (b : Bool) : SameSort t l (l.setRet e b) := by
  unfold Line.setRet
  split <;> exact ⟨rfl, rfl, rfl⟩

theorem sameSort_pids (t : Tank) (l : Line) (e : Env) : SameSort t l (l.pids e) := by
  obtain ⟨_, _, _, _, h⟩ := pids_eq l e
  rw [h]
  exact ⟨rfl, rfl, by cases t <;> rfl⟩

theorem sameSort_source (t : Tank) (l : Line) (e : Env) (s : Src) : SameSort t l (l.source e s).1 := by
  cases s
  · exact ⟨rfl, rfl, by cases t <;> rfl⟩
  · simp only [Line.source, Line.fromWaterTank]
    cases e.waterEmpty <;> simp only [Bool.false_eq_true, if_false, if_true]
    · refine ⟨rfl, rfl, ?_⟩
      dsimp only
      split <;> cases t <;> rfl
    · exact ⟨rfl, rfl, by cases t <;> rfl⟩
  · exact ⟨rfl, rfl, rfl⟩
  · exact ⟨rfl, rfl, rfl⟩

theorem sameSort_checkReturn (t : Tank) (l : Line) (e : Env) (n : Option (Tank × Bool)) :
    SameSort t l (l.checkReturn e n).1 := by
  unfold Line.checkReturn
  dsimp only
  split
  · split
    · exact ⟨rfl, rfl, rfl⟩
    · split <;> exact ⟨rfl, rfl, rfl⟩
  · exact ⟨rfl, rfl, rfl⟩

theorem dest_tank (l : Line) (c : Cfg) (e : Env) (b : Bool) (t : Tank) : l.dest c e b t.dest = l.sortRR c e t false := by
  cases t <;> rfl

theorem sorts_toObject {c : Cfg} {e : Env} {l l' : Line} {s : Src} {t : Tank}
    (h : l.toObject c e s t.dest = (l', .go)) : Sorts t e l l' := by
  unfold Line.toObject at h
  dsimp only at h
  generalize (if l.step = 5 ∨ l.step = 22 ∨ l.step = 42 ∨ l.step = 62 ∨ l.step = 72 ∨ l.step = 83
    then e.retWish else true) = b at h
  have h1 := (sameSort_setRet t l e b).trans (sameSort_source t (l.setRet e b) e s)
  split at h
  · simp at h
  · next l2 h2 =>
    rw [h2] at h1
    rw [dest_tank] at h
    have := (Prod.mk.inj h).1
    rw [← this]
    exact (sorts_sortRR t c e l2).of_same h1

theorem checkReturn_go {c : Cfg} {e : Env} {l l' : Line} {s : Src} {d : Dest}
    (h : l.fromObject c e s d = (l', .go)) :
    ∃ l2, (∀ t, SameSort t l l2) ∧ l' = (l2.resort c e s).dest c e false d := by
  unfold Line.fromObject at h
  dsimp only at h
  have h0 : ∀ t, SameSort t l (if e.retWish then l.setRet e true else l) := by
    intro t
    split
    · exact sameSort_setRet t l e _
    · exact ⟨rfl, rfl, rfl⟩
  generalize (if e.retWish then l.setRet e true else l) = l0 at h h0
  split at h
  · next l1 o h1 =>
    obtain ⟨-, ho⟩ := Prod.mk.inj h
    subst ho
    unfold Line.checkReturn at h1
    dsimp only at h1
    split at h1
    · split at h1
      · simp at h1
      · split at h1
        · simp at h1
        · split at h1 <;> simp at h1
    · simp at h1
  · next l1 h1 =>
    have h2 := sameSort_checkReturn
    split at h
    · simp at h
    · next l2 h3 =>
      refine ⟨l2, fun t => ?_, (Prod.mk.inj h).1.symm⟩
      have ha := (h0 t).trans (sameSort_checkReturn t l0 e (need s d))
      rw [h1] at ha
      have hb := ha.trans (sameSort_source t l1 e s)
      rw [h3] at hb
      exact hb

/-- The functions of the sorting steps. -/
def sortOp (t : Tank) : Op → Bool
  | .toObject s d => d == t.dest && (s == .water || s == .tankW)
  | .fromObject s d => d == t.dest && (s == .water || s == .tankW) || s == t.src && d == .drain
  | .emptyObject d => d == t.dest
  | _ => false

theorem sorted_op : ∀ x ∈ knownSteps, ∀ t ∈ (sorted x).toList, ∀ n a r : Bool,
    (op false n a r x).all (sortOp t) = true := by
  decide +kernel

theorem sorts_doOp {c : Cfg} {e : Env} {l : Line} {o : Op} {t : Tank} (ho : sortOp t o = true)
    (h : (l.doOp c e o).2 = .go) : Sorts t e l (l.doOp c e o).1 := by
  cases o with
  | first | fillWater | circRR _ | checkConc _ | addRR _ | custom | last | fillReturn | circ _ | emptyCirc _ | dose
  | fillRR _ | rinseRR _ | pumping _ _ => simp [sortOp] at ho
  | toObject s d =>
    simp only [sortOp, Bool.and_eq_true, beq_iff_eq] at ho
    rw [ho.1] at h ⊢
    exact sorts_toObject (Prod.ext rfl h)
  | fromObject s d =>
    simp only [sortOp, Bool.or_eq_true, Bool.and_eq_true, beq_iff_eq] at ho
    obtain ⟨l2, h2, h3⟩ := checkReturn_go (l := l) (c := c) (s := s) (d := d) (Prod.ext rfl h)
    rw [show (l.doOp c e (.fromObject s d)).1 = _ from h3]
    rcases ho with ⟨hd, hs⟩ | ⟨hs, hd⟩
    · rw [hd, dest_tank]
      have : l2.resort c e s = l2 := by rcases hs with rfl | rfl <;> rfl
      rw [this]
      exact (sorts_sortRR t c e l2).of_same (h2 t)
    · rw [hd, hs]
      have : (l2.resort c e t.src).dest c e false .drain = l2.sortRR c e t false := by cases t <;> rfl
      rw [this]
      exact (sorts_sortRR t c e l2).of_same (h2 t)
  | emptyObject d =>
    simp only [sortOp, beq_iff_eq] at ho
    rw [ho] at h ⊢
    simp only [Line.doOp, Line.emptyObject] at h ⊢
    split at h
    · simp at h
    · next hl =>
      rw [if_neg hl]
      dsimp only
      have : t.dest ≠ .tankW := by cases t <;> simp [Tank.dest]
      rw [if_neg this, dest_tank]
      exact (sorts_sortRR t c e _).of_same (sameSort_setRet t l e true)

/-! ## Over a history -/

@[simp] theorem setRet_force (l : Line) (e : Env) (b : Bool) : (l.setRet e b).force = l.force := by
  unfold Line.setRet; split <;> rfl
@[simp] theorem pump_force (l : Line) (b : Bool) : (l.pump b).force = l.force := rfl

theorem initOp_force (l : Line) (c : Cfg) (e : Env) (again : Bool) (o : Op) :
    (l.initOp c e again o).force = l.force := by
  cases o with
  | first | last | fillWater | fillReturn | circ _ | emptyCirc _ | dose | fillRR _ | circRR _ | checkConc _ | addRR _
  | rinseRR _ | pumping _ _ | custom | toObject _ _ => simp [Line.initOp, Line.stopDev]
  | fromObject s d => simp only [Line.initOp, setRet_force, pump_force]; split <;> rfl
  | emptyObject d => simp only [Line.initOp]; split <;> simp

theorem initStep_force (l : Line) (c : Cfg) (e : Env) (again : Bool) : (l.initStep c e again).force = true := by
  unfold Line.initStep
  dsimp only
  split
  · rw [initOp_force]
  · rfl

theorem Visit.snoc {c : Cfg} {pre post : List Ev} {x : Int} {ev : Ev} (h : Visit c pre post x)
    (hx : (run c (pre ++ (post ++ [ev]))).step = x) : Visit c pre (post ++ [ev]) x := by
  intro q hq
  rcases List.prefix_concat_iff.1 hq with rfl | h1
  · exact hx
  · exact h q h1

theorem sorted_not_last {x : Int} {t : Tank} (h : sorted x = some t) : x ≠ 555 ∧ ∀ b, Cip.succ x b ≠ none := by
  unfold sorted at h
  split at h
  · next hx => rcases hx with rfl | rfl | rfl | rfl <;> simp [Cip.succ] <;> decide
  · split at h
    · next hx => rcases hx with rfl | rfl | rfl | rfl <;> simp [Cip.succ] <;> decide
    · simp at h

/-- A washing cycle that stays in a sorting step sorts. -/
theorem sorts_cycle {c : Cfg} {l : Line} {t : Tank} (hi : Inv c l) (ht : sorted l.step = some t) (e : Env)
    (hs : 0 < (l.progress c e).state) (hst : (l.progress c e).step = l.step) : Sorts t e l (l.progress c e) := by
  obtain ⟨h5, hl⟩ := sorted_not_last ht
  have hc := cycle_cases (c := c) hi.known e
  generalize l.progress c e = l' at hs hst hc
  cases hc with
  | wait h => exact absurd h h5
  | finish h => exact absurd h h5
  | go _ he o ho hd h =>
    obtain ⟨r, rfl⟩ := h
    have hop := sorted_op l.step hi.known t (by rw [ht]; simp) e.noTank (l.prog.testBit 4) e.rinse
    rw [ho] at hop
    exact (sorts_doOp (l := l.pids e) (by simpa using hop) hd).of_same (sameSort_pids t l e)
  | done _ he o p ho hd h =>
    have hsm := same_doOp (l.pids e) c e o
    have hne : (((l.pids e).doOp c e o).1.goTo p e.opt).step ≠ l.step := by
      have hx : ((l.pids e).doOp c e o).1.step = l.step := by rw [hsm.step, pids_step]
      have := goTo_ne (l := ((l.pids e).doOp c e o).1) p e.opt (by rw [hx]; exact hi.known) (by rw [hx]; exact h5)
        (by rw [hx]; exact hl)
      rwa [hx] at this
    rw [if_pos hne] at h
    rw [h, initStep_step] at hst
    exact absurd hst hne
  | fail _ h => omega

/-- What the last sorting saw. -/
def SortInv (c : Cfg) (evs : List Ev) : Prop :=
  0 < (run c evs).state → ∀ t, sorted (run c evs).step = some t → (run c evs).force = false →
    ∃ pre e0 post, evs = pre ++ .cycle e0 :: post ∧ Visit c pre (.cycle e0 :: post) (run c evs).step ∧
      (run c evs).sortAt = e0.now ∧ ((run c evs).v.back t = true → e0.cmin t ≤ e0.conc t ∧ e0.high t = false)

theorem sort_extend {c : Cfg} {evs : List Ev} {ev : Ev} {t : Tank}
    (h : ∃ pre e0 post, evs = pre ++ .cycle e0 :: post ∧ Visit c pre (.cycle e0 :: post) (run c evs).step ∧
      (run c evs).sortAt = e0.now ∧ ((run c evs).v.back t = true → e0.cmin t ≤ e0.conc t ∧ e0.high t = false))
    (hst : (run c (evs ++ [ev])).step = (run c evs).step) (hat : (run c (evs ++ [ev])).sortAt = (run c evs).sortAt)
    (hb : (run c (evs ++ [ev])).v.back t = (run c evs).v.back t) :
    ∃ pre e0 post, evs ++ [ev] = pre ++ .cycle e0 :: post ∧
      Visit c pre (.cycle e0 :: post) (run c (evs ++ [ev])).step ∧ (run c (evs ++ [ev])).sortAt = e0.now ∧
      ((run c (evs ++ [ev])).v.back t = true → e0.cmin t ≤ e0.conc t ∧ e0.high t = false) := by
  obtain ⟨pre, e0, post, he, hv, ha, hc⟩ := h
  refine ⟨pre, e0, post ++ [ev], by rw [he]; simp, ?_, by rw [hat, ha], by rw [hb]; exact hc⟩
  rw [hst]
  refine Visit.snoc hv ?_
  rw [← hst, he]
  simp

theorem sortInv_run (c : Cfg) (evs : List Ev) : SortInv c evs := by
  induction evs using List.reverseRecOn with
  | nil => intro h; simp [run] at h
  | append_singleton evs ev ih =>
    intro hs t ht hf
    have hi := inv_run c evs
    have hev := next_evol hi ev
    rw [← run_snoc] at hev
    cases hev with
    | stopped h => omega
    | quiet h1 h2 =>
      rw [h2.step] at ht
      refine sort_extend (ih (by rw [← h1]; exact hs) t ht (by rw [← h2.force]; exact hf)) h2.step h2.sortAt ?_
      rw [h2.v]
    | init e he m again hk ha hm hs h =>
      rw [h.force, initStep_force] at hf
      simp at hf
    | cycle e he hw h =>
      subst he
      by_cases hst : (run c (evs ++ [.cycle e])).step = (run c evs).step
      · have h2 := sorts_cycle hi (by rw [← hst]; exact ht) e (by rw [← h]; exact hs) (by rw [← h]; exact hst)
        rw [← h] at h2
        rcases h2 with ⟨h2, h3, h4⟩ | ⟨h2, h3, h4, h5, -⟩
        · refine ⟨evs, e, [], rfl, ?_, h3, h4⟩
          intro q hq
          rcases List.prefix_cons_iff.1 hq with rfl | ⟨q', rfl, hq'⟩
          · rw [hst]; simp
          · rw [List.prefix_nil.1 hq']
        · exact sort_extend (ih hw.1 t (by rw [← hst]; exact ht) h5) hst h3 h4
      · exfalso
        have hc := cycle_cases (c := c) hi.known e
        rw [← h] at hc
        cases hc with
        | wait h5 h' => rw [h'] at hst; simp at hst
        | finish h5 h' => rw [h'] at ht; simp [Line.finish, sorted] at ht
        | go _ he o ho hd h' =>
          obtain ⟨r, h'⟩ := h'
          rw [h'] at hst
          exact hst ((same_doOp ((run c evs).pids e) c e o).step.trans (pids_step _ e))
        | done _ he o p ho hd h' =>
          split at h'
          · rw [h', initStep_force] at hf; simp at hf
          · next hx =>
            rw [h'] at hst
            simp only [not_not] at hx
            exact hst hx
        | fail _ h => omega

end Ptusa.CipFlow
