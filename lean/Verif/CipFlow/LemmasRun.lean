import Verif.CipFlow.Lemmas
import Mathlib.Data.List.Induction

/-!
# Helper lemmas: the invariant over a history
-/
namespace Ptusa.CipFlow

open Ptusa.Cip (Outcome StepErr Opt knownSteps)

theorem good_doOp {c : Cfg} {f : Flags} {l : Line} (h : GoodL c f l) (e : Env) (o : Op)
    (ho : okOp f l.step o = true) : GoodL c f (l.doOp c e o).1 := by
  cases o with
  | first | fillWater | circRR _ | checkConc _ | addRR _ | custom | last => exact h
  | toObject s d =>
    simp only [okOp, Bool.and_eq_true] at ho
    exact good_toObject h e s d ho.1.1 ho.2
  | fromObject s d =>
    simp only [okOp, Bool.and_eq_true] at ho
    exact good_fromObject h e s d ho.1.1 ho.1.2 ho.2
  | emptyObject d =>
    simp only [okOp, Bool.and_eq_true] at ho
    simp only [Line.doOp, Line.emptyObject]
    split
    · exact h
    · have h1 := good_setRet h e true
      split
      · dsimp only [GoodL]
        split
        · exact good_giveW h1 ho.1 _ (.inl rfl)
        · exact good_giveW h1 ho.1 _ (.inr rfl)
      · exact good_dest h1 e false d ho.1 ho.2
  | fillReturn => exact good_setRet h e _
  | circ m =>
    simp only [okOp, Bool.and_eq_true] at ho
    refine good_circMedium (good_setRet (l := { l with v := { l.v with v06 := false } }) ?_ e _) e m ho.1 ?_
    · exact good_congr h rfl rfl rfl rfl rfl rfl rfl rfl rfl rfl rfl
    · intro t h1 h2 h3
      obtain ⟨_, hm⟩ := ho
      cases m with
      | water => exact absurd rfl h3
      | caustic => rw [h1 rfl]; simp at hm; simp [Flags.tank, hm]
      | acid => rw [h2 rfl]; simp at hm; simp [Flags.tank, hm]
  | emptyCirc d =>
    simp only [Line.doOp]
    have h1 := good_setRet h e true
    split
    · next hd =>
      subst hd
      simp [okOp] at ho
      obtain ⟨⟨⟨⟨⟨_, _⟩, _⟩, _⟩, _⟩, hew, hw⟩ := ho
      cases h
      constructor <;> (try simp [V.single, V.outlet]) <;> grind
    · exact h1
  | dose => exact good_setRet h e _
  | fillRR t =>
    simp only [Line.doOp]
    split
    · exact h
    · exact good_refill h e
  | rinseRR t =>
    simp only [okOp, Bool.and_eq_true] at ho
    have h1 := good_sortRR h e t true ho.1 ho.2
    simp only [Line.doOp]
    split
    · exact h1
    · exact good_refill h1 e
  | pumping s d =>
    refine good_scCycle (v := if s = some .water then { l.v with v00 := (l.v.v00 || !e.ll) && !(e.lm || e.lh) }
      else l.v) ?_ e s d ho
    split
    · exact good_congr h rfl rfl rfl rfl rfl rfl rfl rfl rfl rfl rfl
    · exact h

theorem op_some {x : Int} (hx : x ∈ knownSteps) (i n a r : Bool) :
    ∃ o, op i n a r x = some o ∧ okOp (flags x) x o = true := by
  have := op_ok x hx i n a r
  cases h : op i n a r x with
  | none => rw [h] at this; simp at this
  | some o => rw [h] at this; exact ⟨o, rfl, by simpa using this⟩

/-- What holds in all states of the line. -/
structure Inv (c : Cfg) (l : Line) : Prop where
  known : l.step ∈ knownSteps
  idle : l.state = 0 → l.step = 0
  good : GoodL c (flags l.step) l

theorem initOp_step (l : Line) (c : Cfg) (e : Env) (again : Bool) (o : Op) : (l.initOp c e again o).step = l.step := by
  cases o with
  | first | last | fillWater | fillReturn | circ _ | emptyCirc _ | dose | fillRR _ | circRR _ | checkConc _ | addRR _
  | rinseRR _ | pumping _ _ | custom | toObject _ _ => simp [Line.initOp, Line.stopDev]
  | fromObject s d => simp only [Line.initOp, setRet_step, pump_step]; split <;> rfl
  | emptyObject d => simp only [Line.initOp]; split <;> simp

theorem initOp_state (l : Line) (c : Cfg) (e : Env) (again : Bool) (o : Op) :
    (l.initOp c e again o).state = l.state := by
  cases o with
  | first | last | fillWater | fillReturn | circ _ | emptyCirc _ | dose | fillRR _ | circRR _ | checkConc _ | addRR _
  | rinseRR _ | pumping _ _ | custom | toObject _ _ => simp [Line.initOp, Line.stopDev]
  | fromObject s d => simp only [Line.initOp, setRet_state, pump_state]; split <;> rfl
  | emptyObject d => simp only [Line.initOp]; split <;> simp

/-- The settings `_InitStep` makes for every step. -/
def Line.fresh (l : Line) (e : Env) : Line :=
  { l with over := false, empty := false, emptyAt := e.now, full := false, fullAt := e.now, sortAt := e.now, force := true }

theorem initStep_eq {l : Line} (c : Cfg) (e : Env) (again : Bool) {o : Op}
    (h : op true e.noTank (l.prog.testBit 4) e.rinse l.step = some o) :
    l.initStep c e again = (l.fresh e).initOp c e again o := by
  unfold Line.initStep Line.fresh
  dsimp only
  rw [h]

theorem initStep_step (l : Line) (c : Cfg) (e : Env) (again : Bool) : (l.initStep c e again).step = l.step := by
  unfold Line.initStep
  dsimp only
  split
  · rw [initOp_step]
  · rfl

theorem initStep_state (l : Line) (c : Cfg) (e : Env) (again : Bool) : (l.initStep c e again).state = l.state := by
  unfold Line.initStep
  dsimp only
  split
  · rw [initOp_state]
  · rfl

theorem good_initStep {c : Cfg} {f : Flags} {l : Line} (e : Env) (again : Bool) (hk : l.step ∈ knownSteps)
    (hs : 0 ≤ l.state) (h : GoodL c f l)
    (hr : ∀ o, op true e.noTank (l.prog.testBit 4) e.rinse l.step = some o → partialOp o = true →
      rel f (flags l.step) = true)
    (hh : ∀ o, op true e.noTank (l.prog.testBit 4) e.rinse l.step = some o → keepsHeads o = true →
      ((flags l.step).head || !f.head) = true) :
    GoodL c (flags l.step) (l.initStep c e again) := by
  obtain ⟨o, ho, hok⟩ := op_some hk true e.noTank (l.prog.testBit 4) e.rinse
  rw [initStep_eq c e again ho]
  exact good_initOp (l := l.fresh e) e again hs h (hr o ho) (hh o ho) hok

/-- A step is set up again. -/
theorem Inv.again {c : Cfg} {l : Line} (h : Inv c l) (e : Env) (hs : l.state = 1) (again : Bool) :
    Inv c (l.initStep c e again) := by
  refine ⟨by rw [initStep_step]; exact h.known, by rw [initStep_state, hs]; simp, ?_⟩
  rw [initStep_step]
  refine good_initStep e again h.known (by omega) h.good ?_ (fun o _ _ => by cases (flags l.step).head <;> rfl)
  intro o ho hp
  have : ∀ x ∈ knownSteps, ∀ n a r : Bool,
      ((op true n a r x).all fun o => !partialOp o || !(flags x).cross) = true := by decide +kernel
  have := this _ h.known e.noTank (l.prog.testBit 4) e.rinse
  rw [ho] at this
  simp [hp] at this
  simp [rel, this]

theorem good_holdPump {c : Cfg} {f : Flags} {l : Line} (h : GoodL c f l) (e : Env) : GoodL c f (l.holdPump e) := by
  obtain ⟨h1, h2, h3, h4, h5, h6, h7, h8, h9, h10, h11, h12, h13, h14, h15⟩ := h
  unfold Line.holdPump
  split
  · exact ⟨h1, h2, h3, h4, h5, h6, h7, h8, h9, h10, h11, h12, h13, h14, h15⟩
  · exact ⟨h1, h2, h3, h4, h5, h6, h7, h8, h9, h10, h11, h12, by simp, h14, h15⟩
  · split
    · next hx =>
      simp at hx
      exact ⟨h1, h2, h3, h4, h5, h6, h7, h8, h9, h10, h11, h12, fun _ => hx.2, h14, h15⟩
    · exact ⟨h1, h2, h3, h4, h5, h6, h7, h8, h9, h10, h11, h12, h13, h14, h15⟩

theorem good_steam {c : Cfg} {f : Flags} {l : Line} (h : GoodL c f l) (e : Env) : GoodL c f (l.steam e) := by
  unfold Line.steam
  split
  · exact good_congr h rfl rfl rfl rfl rfl rfl rfl rfl rfl rfl rfl
  · exact good_congr h rfl rfl rfl rfl rfl rfl rfl rfl rfl rfl rfl

theorem good_pids {c : Cfg} {f : Flags} {l : Line} (h : GoodL c f l) (e : Env) : GoodL c f (l.pids e) :=
  good_steam (good_holdPump h e) e

theorem holdPump_eq (l : Line) (e : Env) : ∃ np fl, l.holdPump e = { l with np := np, npFlag := fl } := by
  unfold Line.holdPump
  split
  · exact ⟨l.np, l.npFlag, rfl⟩
  · exact ⟨_, _, rfl⟩
  · split
    · exact ⟨_, _, rfl⟩
    · exact ⟨l.np, l.npFlag, rfl⟩

theorem steam_eq (l : Line) (e : Env) : ∃ v13 at', l.steam e = { l with v := { l.v with v13 := v13 }, steamAt := at' } := by
  unfold Line.steam
  split
  · exact ⟨_, l.steamAt, rfl⟩
  · exact ⟨_, _, rfl⟩

/-- `EvalPIDS` changes the pump and the steam valve only. -/
theorem pids_eq (l : Line) (e : Env) : ∃ np fl v13 at', l.pids e =
    { l with np := np, npFlag := fl, v := { l.v with v13 := v13 }, steamAt := at' } := by
  obtain ⟨np, fl, h⟩ := holdPump_eq l e
  obtain ⟨v13, at', h'⟩ := steam_eq (l.holdPump e) e
  exact ⟨np, fl, v13, at', by rw [Line.pids, h', h]⟩

@[simp] theorem pids_step (l : Line) (e : Env) : (l.pids e).step = l.step := by
  obtain ⟨_, _, _, _, h⟩ := pids_eq l e; rw [h]
@[simp] theorem pids_state (l : Line) (e : Env) : (l.pids e).state = l.state := by
  obtain ⟨_, _, _, _, h⟩ := pids_eq l e; rw [h]
@[simp] theorem pids_ncmd (l : Line) (e : Env) : (l.pids e).ncmd = l.ncmd := by
  obtain ⟨_, _, _, _, h⟩ := pids_eq l e; rw [h]
@[simp] theorem pids_blocked (l : Line) (e : Env) : (l.pids e).blocked = l.blocked := by
  obtain ⟨_, _, _, _, h⟩ := pids_eq l e; rw [h]
@[simp] theorem pids_prog (l : Line) (e : Env) : (l.pids e).prog = l.prog := by
  obtain ⟨_, _, _, _, h⟩ := pids_eq l e; rw [h]
@[simp] theorem pids_prg (l : Line) (e : Env) : (l.pids e).prg = l.prg := by
  obtain ⟨_, _, _, _, h⟩ := pids_eq l e; rw [h]
@[simp] theorem pids_npLast (l : Line) (e : Env) : (l.pids e).npLast = l.npLast := by
  obtain ⟨_, _, _, _, h⟩ := pids_eq l e; rw [h]

/-- A move to another step changes the step and the part of the program only. -/
theorem goTo_eq (l : Line) (p : Int) (o : Opt) : ∃ x y, l.goTo p o = { l with step := x, prg := y } := by
  unfold Line.goTo
  split
  · exact ⟨_, l.prg, rfl⟩
  · exact ⟨_, _, rfl⟩

theorem goTo_known (l : Line) (p : Int) (o : Opt) (hk : l.step ∈ knownSteps) (h5 : l.step ≠ 555) :
    (l.goTo p o).step ∈ knownSteps := by
  unfold Line.goTo
  split
  · next s hs => exact (Cip.within_known _ _ _ _ hk h5 s hs).1
  · exact Cip.start_known _ _ _

theorem load_rel {f : Flags} (l : Line) (o : Opt) (hf : (!f.fill && !f.cross && !f.head) = true) (n a r : Bool) :
    ∀ x, op true n a r (l.load o).step = some x → partialOp x = true → rel f (flags (l.load o).step) = true := by
  intro x hx hp
  have := start_rel _ (startStep_mem (Cip.nextPrg l.prg l.prog) l.prog o) n a r
  rw [show Cip.startStep (Cip.nextPrg l.prg l.prog) l.prog o = (l.load o).step from rfl, hx] at this
  simp [hp] at this
  simp at hf
  simp [rel, this, hf]

theorem goTo_rel (l : Line) (p : Int) (o : Opt) (hk : l.step ∈ knownSteps) (h5 : l.step ≠ 555) (n a r : Bool) :
    ∀ x, op true n a r (l.goTo p o).step = some x → partialOp x = true →
      rel (flags l.step) (flags (l.goTo p o).step) = true := by
  unfold Line.goTo
  split
  · next s hs =>
    intro x hx hp
    have := succ_rel l.step hk (Cip.choice l.step p l.prog o) h5 s (by
      rw [show Cip.succ l.step (Cip.choice l.step p l.prog o) = some s from hs]; simp) n a r
    dsimp only at hx
    rw [hx] at this
    simpa [hp] using this
  · next hs => exact load_rel l o (succ_none_rel l.step hk (Cip.choice l.step p l.prog o) h5 hs) n a r

theorem goTo_heads (l : Line) (p : Int) (o : Opt) (hk : l.step ∈ knownSteps) (h5 : l.step ≠ 555) (n a r : Bool) :
    ∀ x, op true n a r (l.goTo p o).step = some x → keepsHeads x = true →
      ((flags (l.goTo p o).step).head || !(flags l.step).head) = true := by
  unfold Line.goTo
  split
  · next s hs =>
    intro x hx hp
    have := succ_heads l.step hk (Cip.choice l.step p l.prog o) h5 s (by
      rw [show Cip.succ l.step (Cip.choice l.step p l.prog o) = some s from hs]; simp) n a r
    dsimp only at hx
    rw [hx] at this
    simpa [hp] using this
  · next hs =>
    have := succ_none_rel l.step hk (Cip.choice l.step p l.prog o) h5 hs
    simp at this
    simp [this]

theorem Inv.goInit {c : Cfg} {l : Line} (h : Inv c l) (p : Int) (e : Env) (h5 : l.step ≠ 555) {s : Int}
    (hs : 0 < s) (again : Bool) : Inv c (({ l.goTo p e.opt with state := s } : Line).initStep c e again) := by
  have hk := goTo_known l p e.opt h.known h5
  refine ⟨by rw [initStep_step]; exact hk, by rw [initStep_state]; intro h0; exfalso; exact hs.ne' h0, ?_⟩
  rw [initStep_step]
  obtain ⟨x, y, hx⟩ := goTo_eq l p e.opt
  refine good_initStep (f := flags l.step) e again hk hs.le ?_ ?_ (fun o ho hp =>
    goTo_heads l p e.opt h.known h5 e.noTank ((l.goTo p e.opt).prog.testBit 4) e.rinse o ho hp)
  · rw [hx]; exact h.good
  · intro o ho hp
    refine goTo_rel l p e.opt h.known h5 e.noTank ((l.goTo p e.opt).prog.testBit 4) e.rinse o ?_ hp
    exact ho

/-- Same step, and what the line does is stopped. -/
theorem Inv.stopped {c : Cfg} {l l' : Line} (h : Inv c l) (b : Bool) (hst : l'.step = l.step)
    (hv : l'.v = l.v.kept b) (hn : l'.np = false) (hl : l'.npLast = false) (h0 : l'.state = 0 → l.step = 0) :
    Inv c l' := by
  refine ⟨by rw [hst]; exact h.known, by rw [hst]; exact h0, ?_⟩
  unfold GoodL
  rw [hst, hv, hn, hl]
  exact good_kept b h.good

theorem Inv.block {c : Cfg} {l : Line} (h : Inv c l) : Inv c l.block := by
  have hpos : ∀ x ∈ knownSteps, 0 ≤ x := by decide +kernel
  have hp := hpos _ h.known
  have h1 : Inv c (if l.ncmd = Cip.cmdLock then { l with blocked := true, ncmd := 0 } else l) := by
    split
    · exact ⟨h.known, h.idle, h.good⟩
    · exact h
  have hs1 : (if l.ncmd = Cip.cmdLock then { l with blocked := true, ncmd := 0 } else l).step = l.step := by
    split <;> rfl
  generalize hl1 : (if l.ncmd = Cip.cmdLock then { l with blocked := true, ncmd := 0 } else l) = l1 at h1 hs1
  have h2 : Inv c (if l1.ncmd = Cip.cmdUnlock then
      { l1 with blocked := false, state := if 0 < l1.step then -1 else 0, ncmd := 0 } else l1) := by
    split
    · refine ⟨h1.known, ?_, h1.good⟩
      dsimp only
      intro h0
      split at h0
      · simp at h0
      · omega
    · exact h1
  generalize hl2 : (if l1.ncmd = Cip.cmdUnlock then
      { l1 with blocked := false, state := if 0 < l1.step then -1 else 0, ncmd := 0 } else l1) = l2 at h2
  have he : l.block = if l2.blocked then
      ({ (if 0 < l2.state then l2.stop else l2) with ncmd := 0, state := Cip.lockedState } : Line).stopDev
      else l2 := by
    unfold Line.block
    dsimp only
    rw [hl1, hl2]
  rw [he]
  split
  · split
    · refine h2.stopped false rfl ?_ rfl rfl (by simp [Line.stopDev, Cip.lockedState])
      simp [Line.stopDev, V.kept, Cip.lockedState]
    · refine h2.stopped false rfl ?_ rfl rfl (by simp [Line.stopDev, Cip.lockedState])
      simp [Line.stopDev, V.kept, Cip.lockedState]
  · exact h2

theorem Inv.pids {c : Cfg} {l : Line} (h : Inv c l) (e : Env) : Inv c (l.pids e) :=
  ⟨by simpa using h.known, by simpa using h.idle, by rw [pids_step]; exact good_pids h.good e⟩

theorem Inv.same {c : Cfg} {l l' : Line} (h : Inv c l) (hs : Same l l') (hg : GoodL c (flags l.step) l') : Inv c l' :=
  ⟨by rw [hs.step]; exact h.known, by rw [hs.step, hs.state]; exact h.idle, by rw [hs.step]; exact hg⟩

theorem same_doStep (l : Line) (c : Cfg) (e : Env) : Same l (l.doStep c e).1 := by
  unfold Line.doStep
  split
  · exact .refl l
  · split
    · exact same_doOp ..
    · exact .refl l

theorem Inv.doStep {c : Cfg} {l : Line} (h : Inv c l) (e : Env) : Inv c (l.doStep c e).1 := by
  refine h.same (same_doStep l c e) ?_
  unfold Line.doStep
  split
  · exact h.good
  · obtain ⟨o, ho, hok⟩ := op_some h.known false e.noTank (l.prog.testBit 4) e.rinse
    rw [ho]
    exact good_doOp h.good e o hok

theorem code_ne (x : StepErr) : x.code ≠ 0 := by cases x <;> simp [StepErr.code]

theorem Inv.progress {c : Cfg} {l : Line} (h : Inv c l) (hs : 0 < l.state) (e : Env) : Inv c (l.progress c e) := by
  have h1 := h.pids e
  unfold Line.progress
  dsimp only
  split
  · split
    · have hn : (0 : Int) ≤ (l.pids e).state := by simpa using hs.le
      simp only [Line.finish, Line.stop, stopDev_all hn]
      exact ⟨by simp [knownSteps], fun _ => rfl, by constructor <;> simp [V.single]⟩
    · exact h1
  · next h5 =>
    have hd := h1.doStep e
    have hsm := same_doStep (l.pids e) c e
    split
    · next l' hl =>
      rw [hl] at hd
      split
      · exact hd.same (same_setRet l' e true) (good_setRet hd.good e true)
      · exact hd
    · next l' p hl =>
      rw [hl] at hd hsm
      have h5' : l'.step ≠ 555 := by rw [hsm.step]; exact h5
      have hst : 0 < l'.state := by rw [hsm.state]; simpa using hs
      have hg := hd.goInit p e h5' hst false
      obtain ⟨x, y, hx⟩ := goTo_eq l' p e.opt
      rw [hx] at hg ⊢
      split
      · exact hg
      · next heq =>
        simp only [not_not] at heq
        refine ⟨?_, ?_, ?_⟩
        · rw [heq]; exact hd.known
        · rw [heq]; exact hd.idle
        · rw [heq]; exact hd.good
    · next l' x hl =>
      rw [hl] at hd
      exact hd.stopped _ rfl rfl rfl rfl (fun h0 => absurd h0 (code_ne x))

theorem Inv.begin {c : Cfg} {l : Line} (h : Inv c l) (h0 : l.state = 0) (e : Env) : Inv c (l.begin c e) := by
  have hz := h.idle h0
  unfold Line.begin
  split
  · exact h
  · exact ⟨h.known, by simp [Cip.errWrongOs], h.good⟩
  · exact ⟨h.known, by simp [Cip.errConflict], h.good⟩
  · exact ⟨h.known, by simp [Cip.errAcid], h.good⟩
  · next car _ =>
    have h1 : Inv c { l with state := 1 } := ⟨h.known, by simp, h.good⟩
    cases car
    · exact h1.again e rfl false
    · dsimp only
      rw [if_pos rfl]
      refine ⟨by rw [initStep_step]; exact Cip.start_known _ _ _, by rw [initStep_state]; simp [Line.load], ?_⟩
      rw [initStep_step]
      refine good_initStep (f := flags l.step) e false (Cip.start_known _ _ _) (by simp [Line.load]) h.good ?_ ?_
      · exact load_rel _ e.opt (by rw [hz]; decide) _ _ _
      · intro o _ _
        rw [hz]
        simp [flags]

theorem Inv.commands {c : Cfg} {l : Line} (h : Inv c l) (e : Env) : Inv c (l.commands c e) := by
  unfold Line.commands
  split
  · split
    · next hx => exact h.goInit 0 e hx.2 one_pos false
    · exact h
  split
  · split
    · exact h.stopped _ rfl rfl rfl rfl (by simp)
    · exact h
  split
  · split
    · have hk : (555 : Int) ∈ knownSteps := by decide
      have hst : (({ l.stop with step := 555 } : Line).initStep c e false).step = 555 := initStep_step _ c e false
      refine ⟨hst ▸ hk, by simp, ?_⟩
      dsimp only
      rw [hst]
      refine good_initStep (f := { flags l.step with head := false }) (l := { l.stop with step := 555 }) e false hk
        (by simp [Line.stop]) ?_ ?_ (by simp)
      · have := good_kept (decide (l.state = -20 ∨ l.state = -19)) h.good
        exact { this with heads := fun _ => ⟨rfl, rfl, rfl⟩ }
      · intro o ho hp
        simp [op] at ho
        rw [← ho] at hp
        simp [partialOp] at hp
    · exact ⟨h.known, h.idle, h.good⟩
  split
  · split
    · split
      · exact h
      split
      · exact ⟨h.known, by simp [Cip.errWrongOs], h.good⟩
      split
      · exact Inv.again (l := { l with state := 1 }) ⟨h.known, by simp, h.good⟩ e rfl true
      · exact h
    · split
      · next hx => exact h.begin hx.1 e
      · exact h
  have hr (b : Bool) : Inv c { ({ l with over := false } : Line).setRet e b with over := true } := by
    refine ⟨by simpa using h.known, by simpa using h.idle, ?_⟩
    have := good_setRet (l := { l with over := false }) h.good e b
    simp [GoodL] at this ⊢
    exact this
  split
  · split
    · exact hr true
    · exact h
  split
  · split
    · exact hr false
    · exact h
  · exact h

theorem Inv.evaluate {c : Cfg} {l : Line} (h : Inv c l) (e : Env) : Inv c (l.evaluate c e) := by
  have hb := h.block
  unfold Line.evaluate
  dsimp only
  split
  · exact hb
  split
  · have := hb.commands e
    exact ⟨this.known, this.idle, this.good⟩
  split
  · next hs => exact hb.progress hs e
  split
  · exact Inv.again (l := { l.block with state := 1 }) ⟨hb.known, by simp, hb.good⟩ e rfl true
  · exact hb

theorem Inv.next {c : Cfg} {l : Line} (h : Inv c l) (ev : Ev) : Inv c (l.next c ev) := by
  cases ev with
  | cmd n => exact ⟨h.known, h.idle, h.good⟩
  | program p => exact ⟨h.known, h.idle, h.good⟩
  | cycle e => exact h.evaluate e

theorem run_snoc (c : Cfg) (evs : List Ev) (ev : Ev) : run c (evs ++ [ev]) = (run c evs).next c ev := by
  simp [run]

theorem inv_run (c : Cfg) (evs : List Ev) : Inv c (run c evs) := by
  induction evs using List.reverseRecOn with
  | nil => exact ⟨by simp [run, knownSteps], fun _ => rfl, by constructor <;> simp [run, V.single]⟩
  | append_singleton l ev ih => rw [run_snoc]; exact ih.next ev

end Ptusa.CipFlow
