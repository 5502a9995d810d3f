import Verif.CipFlow.LemmasCycle

/-!
# Helper lemmas: the water valve of the small tank, the steam valve
-/
namespace Ptusa.CipFlow

open Ptusa.Cip (Outcome StepErr Opt knownSteps)

/-! ## Valves a cycle leaves alone -/

theorem sort_v00 (v : V) (c : Cfg) (t : Tank) (w : Way) : (v.sort c t w).v00 = v.v00 := by cases t <;> cases w <;> rfl
theorem sort_v13 (v : V) (c : Cfg) (t : Tank) (w : Way) : (v.sort c t w).v13 = v.v13 := by cases t <;> cases w <;> rfl
theorem give_v00 (v : V) (d : Dest) : (v.give d).v00 = v.v00 := by cases d <;> rfl
theorem give_v13 (v : V) (d : Dest) : (v.give d).v13 = v.v13 := by cases d <;> rfl

theorem sortRR_v00 (l : Line) (c : Cfg) (e : Env) (t : Tank) (b : Bool) : (l.sortRR c e t b).v.v00 = l.v.v00 := by
  unfold Line.sortRR
  split
  · rfl
  · exact sort_v00 ..

theorem sortRR_v13 (l : Line) (c : Cfg) (e : Env) (t : Tank) (b : Bool) : (l.sortRR c e t b).v.v13 = l.v.v13 := by
  unfold Line.sortRR
  split
  · rfl
  · exact sort_v13 ..

theorem giveIf (v : V) (b : Bool) (d d' : Dest) :
    (if b then v.give d else v.give d').v00 = v.v00 ∧ (if b then v.give d else v.give d').v13 = v.v13 := by
  cases b <;> simp [give_v00, give_v13]

theorem dest_v00 (l : Line) (c : Cfg) (e : Env) (b : Bool) (d : Dest) : (l.dest c e b d).v.v00 = l.v.v00 := by
  cases d
  · rfl
  · exact (giveIf ..).1
  · exact sortRR_v00 ..
  · exact sortRR_v00 ..

theorem dest_v13 (l : Line) (c : Cfg) (e : Env) (b : Bool) (d : Dest) : (l.dest c e b d).v.v13 = l.v.v13 := by
  cases d
  · rfl
  · exact (giveIf ..).2
  · exact sortRR_v13 ..
  · exact sortRR_v13 ..

theorem resort_v00 (l : Line) (c : Cfg) (e : Env) (s : Src) : (l.resort c e s).v.v00 = l.v.v00 := by
  cases s
  · rfl
  · rfl
  · exact sortRR_v00 ..
  · exact sortRR_v00 ..

theorem resort_v13 (l : Line) (c : Cfg) (e : Env) (s : Src) : (l.resort c e s).v.v13 = l.v.v13 := by
  cases s
  · rfl
  · rfl
  · exact sortRR_v13 ..
  · exact sortRR_v13 ..

theorem source_v13 (l : Line) (e : Env) (s : Src) : (l.source e s).1.v.v13 = l.v.v13 := by
  cases s
  · rfl
  · simp only [Line.source, Line.fromWaterTank]
    cases e.waterEmpty <;> simp only [Bool.false_eq_true, if_false, if_true]
    · split <;> rfl
    · rfl
  · rfl
  · rfl

/-- Taking from a tank of caustic or acid leaves `V00`; else a full small tank closes it. -/
theorem source_v00 (l : Line) (e : Env) (s : Src) (h : s = .tankK ∨ s = .tankS ∨ e.lh = true)
    (h0 : s = .tankK ∨ s = .tankS → l.v.v00 = false) : (l.source e s).1.v.v00 = false := by
  cases s
  · simp at h
    simp [Line.source, V.refill, h]
  · simp at h
    simp only [Line.source, Line.fromWaterTank]
    cases e.waterEmpty <;> simp only [Bool.false_eq_true, if_false, if_true]
    · split <;> simp [V.refill, h]
    · simp [V.refill, h]
  · exact h0 (by simp)
  · exact h0 (by simp)

theorem toObject_v (l : Line) (c : Cfg) (e : Env) (s : Src) (d : Dest) :
    (l.toObject c e s d).1.v.v13 = l.v.v13 ∧
      ((s = .tankK ∨ s = .tankS ∨ e.lh = true) → (s = .tankK ∨ s = .tankS → l.v.v00 = false) →
        (l.toObject c e s d).1.v.v00 = false) := by
  unfold Line.toObject
  dsimp only
  generalize (if l.step = 5 ∨ l.step = 22 ∨ l.step = 42 ∨ l.step = 62 ∨ l.step = 72 ∨ l.step = 83
    then e.retWish else true) = b
  have h1 := source_v13 (l.setRet e b) e s
  have h2 := source_v00 (l.setRet e b) e s
  rw [setRet_v] at h1 h2
  split
  · next h => rw [h] at h1 h2; exact ⟨h1, h2⟩
  · next h => rw [h] at h1 h2; dsimp only; rw [dest_v13, dest_v00]; exact ⟨h1, h2⟩

theorem checkReturn_ne_go (l : Line) (e : Env) (n : Option (Tank × Bool)) : (l.checkReturn e n).2 ≠ some .go := by
  unfold Line.checkReturn
  dsimp only
  split
  · split
    · simp
    · split
      · simp
      · dsimp only
        split <;> simp
  · simp

theorem checkReturn_vol {l : Line} {e : Env} {n : Option (Tank × Bool)} {o : Outcome}
    (h : (l.checkReturn e n).2 = some o) : e.vol = true := by
  unfold Line.checkReturn at h
  split at h
  · assumption
  · simp at h

theorem fromObject_v (l : Line) (c : Cfg) (e : Env) (s : Src) (d : Dest) :
    (l.fromObject c e s d).1.v.v13 = l.v.v13 ∧
      ((s = .tankK ∨ s = .tankS → l.v.v00 = false) → (s = .tankK ∨ s = .tankS) → (l.fromObject c e s d).1.v.v00 = false) ∧
      (e.lh = true → (s = .tankK ∨ s = .tankS → l.v.v00 = false) → (l.fromObject c e s d).2 = .go →
        (l.fromObject c e s d).1.v.v00 = false) := by
  unfold Line.fromObject
  dsimp only
  have h0 : (if e.retWish then l.setRet e true else l).v = l.v := by
    split
    · exact setRet_v ..
    · rfl
  generalize (if e.retWish then l.setRet e true else l) = l0 at h0
  have h1 := checkReturn_v l0 e (need s d)
  split
  · next l1 o h =>
    rw [h] at h1
    dsimp only at h1 ⊢
    rw [h1, h0]
    refine ⟨rfl, fun h _ => h ‹_›, ?_⟩
    intro _ _ ho
    subst ho
    exact absurd (congrArg Prod.snd h) (checkReturn_ne_go _ _ _)
  · next l1 h =>
    rw [h] at h1
    dsimp only at h1
    rw [h0] at h1
    have h2 := source_v13 l1 e s
    have h3 := source_v00 l1 e s
    rw [h1] at h2 h3
    split
    · next h =>
      rw [h] at h2 h3
      exact ⟨h2, fun a b => h3 (by tauto) a, fun a b => by simp⟩
    · next h =>
      rw [h] at h2 h3
      dsimp only
      rw [dest_v13, dest_v00, resort_v13, resort_v00]
      exact ⟨h2, fun a b => h3 (by tauto) a, fun a b _ => h3 (by tauto) b⟩

theorem noStop_v (l : Line) (e : Env) (t : Tank) :
    (l.noStop e t).v.v00 = l.v.v00 ∧ (l.noStop e t).v.v13 = l.v.v13 := by
  unfold Line.noStop
  split
  · split
    · exact ⟨give_v00 .., give_v13 ..⟩
    · exact ⟨rfl, rfl⟩
  · dsimp only
    split <;> exact ⟨rfl, rfl⟩

theorem circMedium_v (l : Line) (c : Cfg) (e : Env) (m : Medium) :
    (l.circMedium c e m).v.v13 = l.v.v13 ∧
      (m ≠ .water ∨ c.feedW = false → (l.circMedium c e m).v.v00 = l.v.v00) := by
  cases m
  · simp only [Line.circMedium]
    split
    · next h => exact ⟨rfl, by simp [h]⟩
    · exact ⟨rfl, fun _ => rfl⟩
  all_goals
    simp only [Line.circMedium]
    split
    · rw [(noStop_v ..).1, (noStop_v ..).2]
      split <;> exact ⟨rfl, fun _ => rfl⟩
    · split <;> exact ⟨rfl, fun _ => rfl⟩

theorem scCycle_v13 (v : V) (c : Cfg) (e : Env) (s : Option Src) (d : ScDest) : (v.scCycle c e s d).v13 = v.v13 := by
  cases d <;> unfold V.scCycle <;> dsimp only <;> (try split) <;> rfl

theorem doOp_v13 (l : Line) (c : Cfg) (e : Env) (o : Op) : (l.doOp c e o).1.v.v13 = l.v.v13 := by
  cases o with
  | first | fillWater | circRR _ | checkConc _ | addRR _ | custom | last => rfl
  | toObject s d => exact (toObject_v ..).1
  | fromObject s d => exact (fromObject_v ..).1
  | emptyObject d =>
    simp only [Line.doOp, Line.emptyObject]
    split
    · rfl
    · dsimp only
      split
      · rw [(giveIf ..).2, setRet_v]
      · rw [dest_v13, setRet_v]
  | fillReturn => exact congrArg V.v13 (setRet_v ..)
  | circ m =>
    have := (circMedium_v ({ l with v := { l.v with v06 := false } }.setRet e e.retWish) c e m).1
    rw [setRet_v] at this
    exact this
  | emptyCirc d =>
    simp only [Line.doOp]
    split <;> simp
  | dose => exact congrArg V.v13 (setRet_v ..)
  | fillRR t =>
    simp only [Line.doOp]
    split <;> rfl
  | rinseRR t =>
    simp only [Line.doOp]
    split
    · exact sortRR_v13 ..
    · exact sortRR_v13 ..
  | pumping s d =>
    simp only [Line.doOp, Line.pumping]
    rw [scCycle_v13]
    split <;> rfl

/-! ## `V00` -/

/-- Functions during which `V00` may be open. -/
def opFills (c : Cfg) (b : Bool) : Op → Bool
  | .toObject s _ | .fromObject s _ => s == .water || s == .tankW
  | .first | .fillWater | .fillRR _ | .rinseRR _ | .pumping _ _ | .custom => true
  | .emptyObject _ => b
  | .circ m => m == .water && c.feedW
  | _ => false

/-- Steps in which `V00` may be open, for some settings. -/
def mayFill (c : Cfg) (b : Bool) (x : Int) : Prop := ∃ i n a r, ∃ o, op i n a r x = some o ∧ opFills c b o = true

theorem initOp_v00 {c : Cfg} {e : Env} {l : Line} {o : Op} (hs : 0 ≤ l.state) (again : Bool)
    (h : opFills c e.line o = false) : (l.initOp c e again o).v.v00 = false := by
  cases o with
  | first | fillWater | fillRR _ | rinseRR _ | pumping _ _ | custom => simp [opFills] at h
  | toObject s d =>
    cases s <;> simp [opFills] at h <;> cases d <;> simp only [Line.initOp, pump_v] <;>
      first | (rw [(giveIf ..).1]; rfl) | (rw [give_v00]; rfl)
  | fromObject s d =>
    cases s <;> simp [opFills] at h <;> simp only [Line.initOp, setRet_v, pump_v, give_v00] <;> rfl
  | emptyObject d =>
    simp only [opFills] at h
    simp [Line.initOp, h, give_v00]
  | fillReturn => simp [Line.initOp]
  | circ m => cases m <;> simp only [Line.initOp, setRet_v, pump_v] <;> first | rfl | (split <;> rfl)
  | emptyCirc d => simp [Line.initOp, give_v00]
  | dose => simp [Line.initOp]
  | circRR t | checkConc t | addRR t => cases t <;> simp [Line.initOp, Tank.src, V.take, give_v00]
  | last => simp [Line.initOp, stopDev_all hs]

theorem doOp_v00 {c : Cfg} {e : Env} {l : Line} {o : Op} (h : opFills c e.line o = false) (h0 : l.v.v00 = false) :
    (l.doOp c e o).1.v.v00 = false := by
  cases o with
  | first | fillWater | fillRR _ | rinseRR _ | pumping _ _ | custom => simp [opFills] at h
  | circRR _ | checkConc _ | addRR _ | last => exact h0
  | toObject s d =>
    refine (toObject_v l c e s d).2 ?_ (fun _ => h0)
    cases s <;> simp [opFills] at h <;> simp
  | fromObject s d =>
    refine (fromObject_v l c e s d).2.1 (fun _ => h0) ?_
    cases s <;> simp [opFills] at h <;> simp
  | emptyObject d =>
    simp only [Line.doOp, Line.emptyObject]
    split
    · exact h0
    · dsimp only
      split
      · rw [(giveIf ..).1, setRet_v]; exact h0
      · rw [dest_v00, setRet_v]; exact h0
  | fillReturn => exact (congrArg V.v00 (setRet_v ..)).trans h0
  | circ m =>
    have := (circMedium_v ({ l with v := { l.v with v06 := false } }.setRet e e.retWish) c e m).2 (by
      cases m <;> simp [opFills] at h <;> simp [h])
    rw [setRet_v] at this
    exact this.trans h0
  | emptyCirc d =>
    simp only [Line.doOp]
    split <;> simpa using h0
  | dose => exact (congrArg V.v00 (setRet_v ..)).trans h0

/-- A cycle of any function during which the small tank is full. -/
theorem doOp_full {c : Cfg} {e : Env} {l : Line} {o : Op} (hh : e.lh = true) (hm : e.lm = true)
    (hp : ∀ s d, o ≠ .pumping s d) (hc : o ≠ .custom) (h0 : opFills c e.line o = false → l.v.v00 = false)
    (hg : (l.doOp c e o).2 = .go) : (l.doOp c e o).1.v.v00 = false := by
  by_cases hf : opFills c e.line o = false
  · exact doOp_v00 hf (h0 hf)
  simp only [Bool.not_eq_false] at hf
  cases o with
  | pumping s d => exact absurd rfl (hp s d)
  | custom => exact absurd rfl hc
  | first => simp [Line.doOp, hm] at hg
  | fillWater => simp [Line.doOp, hh] at hg
  | toObject s d =>
    refine (toObject_v l c e s d).2 (by simp [hh]) ?_
    rintro (rfl | rfl) <;> simp [opFills] at hf
  | fromObject s d =>
    refine (fromObject_v l c e s d).2.2 hh ?_ hg
    rintro (rfl | rfl) <;> simp [opFills] at hf
  | emptyObject d =>
    simp only [opFills] at hf
    simp [Line.doOp, Line.emptyObject, hf] at hg
  | fillRR t =>
    simp only [Line.doOp] at hg ⊢
    split
    · next hx => rw [if_pos hx] at hg; simp at hg
    · simp [V.refill, hh]
  | rinseRR t =>
    simp only [Line.doOp] at hg ⊢
    split
    · next hx => rw [if_pos hx] at hg; simp at hg
    · simp [V.refill, hh]
  | circ m =>
    simp only [opFills, Bool.and_eq_true, beq_iff_eq] at hf
    obtain ⟨rfl, hf⟩ := hf
    simp [Line.doOp, Line.circ, Line.circMedium, hf, feed, hh]
  | circRR _ | checkConc _ | addRR _ | last | fillReturn | emptyCirc _ | dose => simp [opFills] at hf

/-- `V00` is closed in steps that do not use it. -/
theorem v00_run (c : Cfg) (b : Bool) (evs : List Ev) (hb : SameType b evs) (hx : ¬mayFill c b (run c evs).step) :
    (run c evs).v.v00 = false := by
  induction evs using List.reverseRecOn with
  | nil => rfl
  | append_singleton evs ev ih =>
    have hi := inv_run c evs
    have hev := next_evol hi ev
    rw [← run_snoc] at hev
    have ih' := ih (fun e he => hb e (by simp [he]))
    have hin {e : Env} (he : ev = .cycle e) {m : Line} (hk : m.step ∈ knownSteps) (hs : 0 ≤ m.state) (again : Bool)
        (hm : ¬mayFill c b m.step) : (m.initStep c e again).v.v00 = false := by
      obtain ⟨o, ho, -⟩ := op_some hk true e.noTank (m.prog.testBit 4) e.rinse
      rw [initStep_eq c e again ho]
      refine initOp_v00 (l := m.fresh e) hs again ?_
      have hl : e.line = b := hb e (by simp [he])
      rw [hl]
      cases hf : opFills c b o with
      | false => rfl
      | true => exact absurd ⟨_, _, _, _, o, ho, hf⟩ hm
    cases hev with
    | stopped _ h hp =>
      rcases hp with hp | ⟨-, v, k, hv⟩
      · rw [hp.v]; exact ih' (by rw [← h.1]; exact hx)
      · rw [hv]; rfl
    | quiet h1 h2 => rw [h2.v]; exact ih' (by rw [← h2.step]; exact hx)
    | init e he m again hk hag hm hs h =>
      rw [h.v]
      refine hin he hk (by omega) again ?_
      rw [h.step, initStep_step] at hx
      exact hx
    | cycle e he hw h =>
      have hl : e.line = b := hb e (by simp [he])
      have hc := cycle_cases (c := c) hi.known e
      rw [← h] at hc
      have hp : ((run c evs).pids e).v.v00 = (run c evs).v.v00 := by
        obtain ⟨_, _, _, _, h⟩ := pids_eq (run c evs) e
        rw [h]
      cases hc with
      | wait h5 h' =>
        rw [h', hp]
        refine ih' ?_
        rw [h', pids_step] at hx
        exact hx
      | finish h5 h' =>
        rw [h']
        rfl
      | go _ he' o ho hd h' =>
        obtain ⟨r, h'⟩ := h'
        have hst := (same_doOp ((run c evs).pids e) c e o).step.trans (pids_step _ e)
        have hx' : ¬mayFill c b (run c evs).step := by
          rw [h'] at hx
          dsimp only at hx
          rwa [hst] at hx
        rw [h']
        refine doOp_v00 ?_ (by rw [hp]; exact ih' hx')
        rw [hl]
        cases hf : opFills c b o with
        | false => rfl
        | true => exact absurd ⟨_, _, _, _, o, ho, hf⟩ hx'
      | done h5 he' o p ho hd h' =>
        have hst := (same_doOp ((run c evs).pids e) c e o).step.trans (pids_step _ e)
        split at h'
        · rw [h']
          obtain ⟨x, y, hg⟩ := goTo_eq (((run c evs).pids e).doOp c e o).1 p e.opt
          refine hin he (goTo_known _ p e.opt (by rw [hst]; exact hi.known) (by rw [hst]; exact h5)) ?_ false ?_
          · rw [hg]
            have := (same_doOp ((run c evs).pids e) c e o).state.trans (pids_state _ e)
            dsimp only
            rw [this]
            exact hw.1.le
          · rw [h', initStep_step] at hx
            exact hx
        · next hne =>
          simp only [not_not] at hne
          have hx' : ¬mayFill c b (run c evs).step := by rw [h', hne] at hx; exact hx
          obtain ⟨x, y, hg⟩ := goTo_eq (((run c evs).pids e).doOp c e o).1 p e.opt
          rw [h', hg]
          refine doOp_v00 ?_ (by rw [hp]; exact ih' hx')
          rw [hl]
          cases hf : opFills c b o with
          | false => rfl
          | true => exact absurd ⟨_, _, _, _, o, ho, hf⟩ hx'
      | fail h5 hs hp' hv hst hr' =>
        obtain ⟨v, k, hv⟩ := hv
        rw [hv]
        rfl

theorem opFills_cfg (c : Cfg) (b : Bool) (o : Op) : opFills c b o = opFills { feedW := c.feedW } b o := by
  cases o <;> rfl

theorem opFills_table : ∀ x ∈ knownSteps, ∀ w b i n a r : Bool,
    (op i n a r x).map (opFills { feedW := w } b) = (op false false false false x).map (opFills { feedW := w } b) := by
  decide +kernel

/-- Whether a step may use `V00` does not depend on the tank of used water or on the program. -/
theorem opFills_same {c : Cfg} {b : Bool} {x : Int} (hk : x ∈ knownSteps) {i n a r : Bool} {o : Op}
    (ho : op i n a r x = some o) (hf : opFills c b o = false) : ¬mayFill c b x := by
  rintro ⟨i', n', a', r', o', ho', hf'⟩
  have h1 := opFills_table x hk c.feedW b i n a r
  have h2 := opFills_table x hk c.feedW b i' n' a' r'
  rw [← h2, ho, ho'] at h1
  simp only [Option.map_some, Option.some.injEq, ← opFills_cfg] at h1
  rw [hf, hf'] at h1
  simp at h1

theorem op_special : ∀ x ∈ knownSteps, ∀ i n a r : Bool,
    ((op i n a r x).all fun o => match o with
      | .pumping _ _ => decide (151 ≤ x) && decide (x ≤ 188)
      | .custom => decide (x = 300)
      | _ => true) = true := by
  decide +kernel

/-- A part of the program does not begin with the last step of another. -/
theorem last_not_start : ∀ x ∈ knownSteps, ∀ b : Bool, x ≠ 555 → x ≠ 91 → x ≠ 300 → Cip.succ x b = none →
    x ∉ startSteps := by decide +kernel

theorem goTo_leaves {l : Line} (p : Int) (o : Opt) (hk : l.step ∈ knownSteps) (h5 : l.step ≠ 555) (h9 : l.step ≠ 91)
    (h3 : l.step ≠ 300) : (l.goTo p o).step ≠ l.step := by
  unfold Line.goTo
  split
  · next s hx => exact (Cip.within_known _ _ _ _ hk h5 s hx).2.2.2
  · next hx =>
    intro h
    exact last_not_start l.step hk (Cip.choice l.step p l.prog o) h5 h9 h3 hx (by
      rw [← h]; exact startStep_mem (Cip.nextPrg l.prg l.prog) l.prog o)

end Ptusa.CipFlow
