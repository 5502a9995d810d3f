import Verif.Operation.Lemmas

/-!
# C15, C16, C24, C25: operations, their states and steps
-/
namespace Ptusa.Operation

/-- Configuration used in the examples: running has three steps, the transitional states
`unpausing` and `stopping` have one step, the others are empty. -/
def demo : St → SCfg
  | .run => { steps := 3 }
  | .unpausing => { steps := 1 }
  | .stopping => { steps := 1 }
  | _ => { steps := 0, empty := true }

/-! ### C15 -/

/-- C15.  After any history of calls (commands with any arguments, evaluations, step and extra step
requests, with any answers of the outside world) the operation is in the state given by following
the state diagram command by command.  -/
theorem C15_follows_diagram (c : St → SCfg) (es : List Ev) (o : Op)
    (h : (Op.fresh c).runEv c es = some o) :
    o.cur = es.foldl (follow fun s => !(c s).empty) .idle := by
  suffices H : ∀ (es : List Ev) (o1 o2 : Op), o1.runEv c es = some o2 →
      o2.cur = es.foldl (follow fun s => !(c s).empty) o1.cur from H es _ _ h
  intro es
  induction es with
  | nil => intro o1 o2 h; cases h; rfl
  | cons ev es ih =>
    intro o1 o2 h
    simp only [Op.runEv, Option.bind_eq_some_iff] at h
    obtain ⟨o', h1, h2⟩ := h
    rw [ih o' o2 h2, step_cur h1]
    rfl

example : ((Op.fresh demo).runEv demo
    [.start {} {} 0, .evaluate {}, .pause {} {}, .pause {} {}, .start {} {} 2, .stop {} {},
     .start {} {} 1, .stop {} {}, .finalize]).map (·.cur) = some .idle ∧
    ((Op.fresh demo).runEv demo [.start {} {} 0, .pause {} {}, .start {} {} 2, .stop {} {},
     .start {} {} 1]).map (·.cur) = some .stopping := by decide

/-- C15.  A command that the diagram does not provide for in the current state changes nothing at
all: not the state, not any step. -/
theorem C15_inapplicable_no_effect (c : St → SCfg) (o : Op) (ev : Ev) (k : Cmd)
    (hk : ev.cmd? = some k) (hd : diagram (fun s => !(c s).empty) k o.cur = none) :
    o.step c ev = some o := by
  cases ev <;> simp only [Ev.cmd?, Option.some.injEq, reduceCtorEq] at hk <;> subst hk <;>
    cases hc : o.cur <;> simp [diagram, hc] at hd <;>
    simp [Op.step, Op.start, Op.pause, Op.stop, Op.switchOff, Op.finalize, hc]

example : ∃ o : Op, (Op.fresh demo).runEv demo [.start {} {} 0, .stop {} {}, .stop {} {}] = some o ∧
    o.cur = .stop ∧ diagram (fun s => !(demo s).empty) .start o.cur = none :=
  ⟨_, rfl, by decide, by decide⟩

/-- C15.  Commands are defined in every state (the model's undefined outcome is for extra step
requests only). -/
theorem C15_commands_defined (c : St → SCfg) (o : Op) (ev : Ev) (k : Cmd)
    (hk : ev.cmd? = some k) : ∃ o', o.step c ev = some o' := by
  cases ev <;> simp only [Ev.cmd?, Option.some.injEq, reduceCtorEq] at hk <;> exact ⟨_, rfl⟩

example : (Ev.stop {} {}).cmd? = some .stop := rfl

/-- C15.  Only a command moves an operation: evaluations and step requests leave its state. -/
theorem C15_only_commands_move (c : St → SCfg) (o o' : Op) (ev : Ev)
    (hk : ev.cmd? = none) (h : o.step c ev = some o') : o'.cur = o.cur := by
  rw [step_cur h, follow, hk]

example : ∃ o', (Op.fresh demo).step demo (.evaluate {}) = some o' ∧ (Ev.evaluate {}).cmd? = none :=
  ⟨_, rfl, rfl⟩

/-- C15.  A stopped operation can only be switched off; the state `completing` is never entered. -/
theorem C15_stop_is_final (c : St → SCfg) (es : List Ev) (o o' : Op) (ev : Ev)
    (h : (Op.fresh c).runEv c es = some o) (hs : o.step c ev = some o') :
    (o.cur = .stop → o'.cur = .stop ∨ o'.cur = .idle) ∧ o.cur ≠ .completing := by
  refine ⟨?_, ?_⟩
  · intro hc
    rw [step_cur hs, follow, hc]
    cases hk : ev.cmd? with
    | none => simp
    | some k => cases k <;> simp [diagram]
  · rw [C15_follows_diagram c es o h]
    suffices H : ∀ (es : List Ev) (s : St), s ≠ .completing →
        es.foldl (follow fun s => !(c s).empty) s ≠ .completing from H es _ (by simp)
    intro es
    induction es with
    | nil => intro s h; exact h
    | cons ev es ih =>
      intro s h
      refine ih _ ?_
      unfold follow
      cases ev.cmd? with
      | none => exact h
      | some k =>
        cases k <;> cases s <;> simp [diagram] at h ⊢ <;> split <;> simp

example : ∃ o o', (Op.fresh demo).runEv demo [.start {} {} 0, .stop {} {}, .stop {} {}] = some o ∧
    o.cur = .stop ∧ o.step demo .finalize = some o' ∧ o'.cur = .idle :=
  ⟨_, _, rfl, by decide, rfl, by decide⟩

/-! ### C16 -/

/-- C16 (part).  After any history of calls, a state that is not the reported one is at rest: no
active step, no active extra step, no step initialised and not finalised.  Not covered: the state
`unpausing` of an operation that has one (see `C16_unpausing_violated`). -/
theorem C16_only_current_active_partial (c : St → SCfg) (es : List Ev) (o : Op)
    (h : (Op.fresh c).runEv c es = some o) (s : St) (hs : s ≠ o.cur)
    (hu : s ≠ .unpausing ∨ (c .unpausing).empty = true) : Quiet (o.st s) :=
  ((inv_fresh c).runEv es h).quiet s hu (by simpa using fun e => hs e.symm)

example : ∃ o, (Op.fresh demo).runEv demo [.start {} {} 0, .onExtra {} 2, .pause {} {}] = some o ∧
    o.cur = .pause ∧ St.run ≠ o.cur ∧ (o.st .run).saved = [2] :=
  ⟨_, rfl, by decide, by decide, by decide⟩

/-- C16 (part).  Every step that was ever initialised in a state other than the reported one has
been finalised since (with the same exception). -/
theorem C16_leaving_finalises_partial (c : St → SCfg) (es : List Ev) (o : Op)
    (h : (Op.fresh c).runEv c es = some o) (s : St) (hs : s ≠ o.cur)
    (hu : s ≠ .unpausing ∨ (c .unpausing).empty = true) (i : Nat) (hi : i < (c s).steps) :
    inUse (o.st s).log (some i) = false ∧ inUse (o.st s).log none = false := by
  have hI := (inv_fresh c).runEv es h
  have hq := C16_only_current_active_partial c es o h s hs hu
  refine ⟨?_, ?_⟩
  · have := (hI.basic s).logged i hi
    exact hq.act _ (List.mem_of_getElem? this)
  · rw [← (hI.basic s).modeLogged]; exact hq.mode

example : ∃ o, (Op.fresh demo).runEv demo [.start {} {} 0, .onExtra {} 2, .pause {} {}] = some o ∧
    (o.st .run).log = [.init none, .init (some 0), .eval (some 0), .init (some 1), .eval (some 1),
      .fin none, .fin (some 0), .fin (some 1)] :=
  ⟨_, rfl, by decide⟩

/-- C16.  A call touches only the state reported before it and the state reported after it. -/
theorem C16_others_untouched (c : St → SCfg) (o o' : Op) (ev : Ev) (h : o.step c ev = some o')
    (s : St) (h1 : s ≠ o.cur) (h2 : s ≠ o'.cur) : o'.st s = o.st s :=
  step_frame h s h1 h2

example : ∃ o', (Op.fresh demo).step demo (.start {} {} 0) = some o' ∧ St.pause ≠ .idle ∧
    St.pause ≠ o'.cur := ⟨_, rfl, by decide, by decide⟩

/-- C16.  In particular an evaluation calls only steps of the reported state. -/
theorem C16_evaluate_current_only (c : St → SCfg) (o : Op) (e : Env) (s : St) (h : s ≠ o.cur) :
    ((o.evalCur c e).st s).log = (o.st s).log := by
  simp [Op.evalCur, Op.upd, h]

example : ((Op.fresh demo).evalCur demo {}).cur = .idle := rfl

/-- C16 is violated: an operation that leaves `unpausing` by a start command does not finalise
that state; its steps stay active while the operation reports `run`. -/
theorem C16_unpausing_violated :
    ¬ ∀ (c : St → SCfg) (es : List Ev) (o : Op), (Op.fresh c).runEv c es = some o →
      ∀ s, s ≠ o.cur → Quiet (o.st s) := by
  intro H
  have := H demo [.start {} {} 0, .pause {} {}, .start {} {} 0, .start {} {} 0] _ rfl .unpausing
    (by decide)
  exact absurd this.main (by decide)

/-! ### C24 -/

/-- C24.  Requesting a step in range makes it the reported active step of the state. -/
theorem C24_request_selects (c : SCfg) (e : Env) (r : OpState) (k : Int) (h1 : 1 ≤ k)
    (h2 : k ≤ c.steps) : ((r.toStep c e k).activeStep : Int) = k := by
  unfold OpState.toStep
  rw [if_neg (by omega)]
  dsimp only
  split <;> simp only [OpState.activeStep, OpState.evalStep, OpState.initStep] <;> omega

example : ((⟨true, some 0, -1, [true, false, false], [], [], []⟩ : OpState).toStep
    { steps := 3 } {} 3).act = [false, false, true] := by decide

/-- C24.  Whatever was requested before, the requested step is then the only active main step: every
other step in use is one of the active extra steps.  (A step with duration 0 is selected but not
started: see `C24_zero_duration`.) -/
theorem C24_only_main (c : St → SCfg) (es : List Ev) (o o' : Op)
    (h : (Op.fresh c).runEv c es = some o) (hu : o.cur ≠ .unpausing ∨ (c .unpausing).empty = true)
    (e : Env) (k : Int) (h1 : 1 ≤ k) (h2 : k ≤ (c o.cur).steps) (hd : e.zeroDur (k.toNat - 1) = false)
    (hs : o.step c (.toStep e k) = some o') :
    ((o'.st o.cur).activeStep : Int) = k ∧
    inUse (o'.st o.cur).log (some (k.toNat - 1)) = true ∧
    ∀ i, i < (c o.cur).steps → inUse (o'.st o.cur).log (some i) = true →
      (i + 1 : Int) = k ∨ (o'.st o.cur).isExtra (i + 1) = true := by
  have hI := (inv_fresh c).runEv es h
  have hI' := hI.step hs
  have hst : o'.st o.cur = (o.st o.cur).toStep (c o.cur) e k := by
    simp only [Op.step, Option.some.injEq] at hs
    subst hs
    simp [Op.upd]
  have ha := C24_request_selects (c o.cur) e (o.st o.cur) k h1 h2
  rw [← hst] at ha
  refine ⟨ha, ?_, ?_⟩
  · have hl := (hI'.basic o.cur).logged (k.toNat - 1) (by omega)
    have hlen : (o.st o.cur).finMain.act.length = (c o.cur).steps := (hI.basic o.cur).finMain.len
    have hact : (o'.st o.cur).act[k.toNat - 1]? = some true := by
      rw [hst]
      unfold OpState.toStep
      rw [if_neg (by omega)]
      simp only [hd, Bool.false_eq_true, if_false, OpState.evalStep, OpState.initStep]
      rw [List.getElem?_set_self (by rw [hlen]; omega)]
    rw [hl] at hact
    exact Option.some.inj hact
  · intro i hi hin
    have hl := (hI'.basic o.cur).logged i hi
    rw [hin] at hl
    have hT : Tidy c o.cur := hu
    rcases hI'.cover o.cur hT i hl with hm | hm
    · left
      simp only [OpState.activeStep, hm] at ha
      exact_mod_cast ha
    · right
      simp only [OpState.isExtra, decide_eq_true_eq]
      refine ⟨by omega, ?_⟩
      have : ((i : Int) + 1).toNat = i + 1 := by omega
      rw [this]; exact hm

example : ∃ o, (Op.fresh demo).runEv demo [.start {} {} 0, .onExtra {} 3] = some o ∧
    o.cur ≠ .unpausing ∧ (2 : Int) ≤ (demo o.cur).steps ∧ (o.st o.cur).activeStep = 1 ∧
    ((o.st .run).toStep (demo .run) {} 2).act = [false, true, true] :=
  ⟨_, rfl, by decide, by decide, by decide, by decide⟩

/-- C24.  A request out of range (zero, negative or too large) changes nothing. -/
theorem C24_out_of_range (c : St → SCfg) (o o' : Op) (e : Env) (k : Int)
    (hk : k ≤ 0 ∨ ((c o.cur).steps : Int) < k) (hs : o.step c (.toStep e k) = some o') :
    o'.cur = o.cur ∧ ∀ s, o'.st s = o.st s := by
  simp only [Op.step, Option.some.injEq] at hs
  subst hs
  refine ⟨rfl, ?_⟩
  intro s
  by_cases h : s = o.cur
  · subst h
    simp only [Op.upd, if_true, OpState.toStep]
    rw [if_pos hk]
  · simp [Op.upd, h]

example : ∃ o, (Op.fresh demo).runEv demo [.start {} {} 0] = some o ∧
    ((demo o.cur).steps : Int) < 4 ∧ (o.st o.cur).activeStep = 1 :=
  ⟨_, rfl, by decide, by decide⟩

/-- C24.  After any sequence of step requests the active step is the last requested step in range
(the one active before if there was none). -/
theorem C24_last_request (c : SCfg) (r : OpState) (ks : List (Env × Int)) :
    (ks.foldl (fun r x => r.toStep c x.1 x.2) r).activeStep =
      (((ks.map (·.2)).filter fun k : Int => decide (1 ≤ k ∧ k ≤ (c.steps : Int))).map Int.toNat).getLastD
        r.activeStep := by
  induction ks generalizing r with
  | nil => rfl
  | cons x ks ih =>
    rw [List.foldl_cons, ih, List.map_cons, List.filter_cons]
    by_cases hx : 1 ≤ x.2 ∧ x.2 ≤ c.steps
    · rw [if_pos (by simpa using hx)]
      have := C24_request_selects c x.1 r x.2 hx.1 hx.2
      have h2 : (r.toStep c x.1 x.2).activeStep = x.2.toNat := by omega
      rw [h2, List.map_cons, List.getLastD_cons]
    · rw [if_neg (by simpa using hx)]
      have : r.toStep c x.1 x.2 = r := by
        unfold OpState.toStep
        rw [if_pos (by omega)]
      rw [this]

example : (([(({} : Env), (2 : Int)), ({}, 7), ({}, 3), ({}, 0)]).foldl
    (fun r x => OpState.toStep { steps := 3 } x.1 x.2 r)
    (⟨true, some 0, -1, [true, false, false], [], [], []⟩ : OpState)).activeStep = 3 := by decide

/-- C24.  A step with a duration parameter of value 0 becomes the reported active step without being
started; what was in use before, except the previous main step, stays in use. -/
theorem C24_zero_duration (c : SCfg) (e : Env) (r : OpState) (k : Int) (h1 : 1 ≤ k)
    (h2 : k ≤ c.steps) (hd : e.zeroDur (k.toNat - 1) = true) :
    ((r.toStep c e k).activeStep : Int) = k ∧
    ∀ i, (r.toStep c e k).act[i]? = some true ↔ r.act[i]? = some true ∧ r.main ≠ some i := by
  refine ⟨C24_request_selects c e r k h1 h2, ?_⟩
  intro i
  unfold OpState.toStep
  rw [if_neg (by omega)]
  simp only [hd, if_true]
  exact finMain_act r i

example : ((⟨true, some 0, -1, [true, false, false], [], [], []⟩ : OpState).toStep
    { steps := 3 } { zeroDur := fun _ => true } 3).act = [false, false, false] := by decide

/-- C24.  Leaving a state leaves no active step in it. -/
theorem C24_leaving (c : St → SCfg) (es : List Ev) (o o' : Op) (ev : Ev)
    (h : (Op.fresh c).runEv c es = some o) (hu : o.cur ≠ .unpausing ∨ (c .unpausing).empty = true)
    (hs : o.step c ev = some o') (hl : o'.cur ≠ o.cur) :
    (o'.st o.cur).activeStep = 0 ∧ ∀ k, (o'.st o.cur).isExtra k = false := by
  have hq := (((inv_fresh c).runEv es h).step hs).quiet o.cur hu (by simpa using hl)
  refine ⟨by simp [OpState.activeStep, hq.main], ?_⟩
  intro k
  simp [OpState.isExtra, hq.extra]

example : ∃ o o', (Op.fresh demo).runEv demo [.start {} {} 0, .onExtra {} 3] = some o ∧
    o.step demo (.pause {} {}) = some o' ∧ o'.cur ≠ o.cur ∧ (o.st o.cur).activeStep = 1 :=
  ⟨_, _, rfl, rfl, by decide, by decide⟩

/-! ### C25 -/

/-- C25 (part).  Switching on an extra step whose check passes makes it reported active and
initialises it unless it already was; no other step is affected. -/
theorem C25_switch_on_partial (c : SCfg) (e : Env) (r : OpState) (k : Int) (h1 : 1 ≤ k)
    (h2 : k ≤ c.steps) (hm : (r.activeStep : Int) ≠ k) (hc : e.checkOk (k.toNat - 1) = true) :
    ∃ r', r.onExtra c e k = some (r', 0) ∧ r'.isExtra k = true ∧
      (∀ j, j ≠ k → r'.isExtra j = r.isExtra j) ∧ r'.activeStep = r.activeStep ∧
      (r.isExtra k = false → r'.log = r.log ++ [.init (some (k.toNat - 1)), .eval (some (k.toNat - 1))]) := by
  have hm' : r.main ≠ some (k.toNat - 1) := by
    intro h
    apply hm
    simp only [OpState.activeStep, h]
    omega
  unfold OpState.onExtra OpState.onExtraPos
  rw [if_neg (by omega), if_neg (by omega), if_neg (by omega), if_neg hm']
  by_cases hk : k.toNat ∈ r.extra
  · rw [if_pos hk]
    refine ⟨r, rfl, by simp [OpState.isExtra, hk]; omega, fun _ _ => rfl, rfl, ?_⟩
    intro h
    simp only [OpState.isExtra, decide_eq_false_iff_not] at h
    exact absurd ⟨by omega, hk⟩ h
  · rw [if_neg hk]
    simp only [hc, if_true]
    refine ⟨_, rfl, ?_, ?_, ?_, ?_⟩
    · simp only [OpState.isExtra, OpState.evalStep_extra, OpState.initStep_extra,
        List.mem_append, List.mem_singleton, or_true, and_true, decide_eq_true_eq]
      omega
    · intro j hj
      simp only [OpState.isExtra, OpState.evalStep_extra, OpState.initStep_extra,
        List.mem_append, List.mem_singleton]
      congr 1
      apply propext
      constructor
      · rintro ⟨h0, h | h⟩
        · exact ⟨h0, h⟩
        · omega
      · rintro ⟨h0, h⟩
        exact ⟨h0, .inl h⟩
    · simp [OpState.activeStep]
    · intro _
      simp [OpState.evalStep, OpState.initStep]

example : ((⟨true, some 0, -1, [true, false, false], [3], [], []⟩ : OpState).onExtra
    { steps := 3 } {} 2).map (fun x => (x.1.extra, x.1.act, x.2)) =
      some ([3, 2], [true, true, false], 0) := by decide

/-- C25 (part).  Switching off an extra step makes it reported inactive, finalises it, and affects no
other step, provided the list has no duplicates (`C25_no_duplicates_partial`). -/
theorem C25_switch_off_partial (c : SCfg) (r : OpState) (hnd : r.extra.Nodup) (k : Int)
    (h1 : 1 ≤ k) (h2 : k ≤ c.steps) :
    (r.offExtra c k).isExtra k = false ∧
    (∀ j, j ≠ k → (r.offExtra c k).isExtra j = r.isExtra j) ∧
    (r.isExtra k = true → (r.offExtra c k).log = r.log ++ [.fin (some (k.toNat - 1))]) ∧
    (r.isExtra k = false → r.offExtra c k = r) := by
  unfold OpState.offExtra
  rw [if_neg (by omega)]
  by_cases hk : k.toNat ∈ r.extra
  · rw [if_pos hk]
    refine ⟨?_, ?_, fun _ => rfl, ?_⟩
    · simp only [OpState.isExtra, decide_eq_false_iff_not, not_and]
      intro _
      exact hnd.not_mem_erase
    · intro j hj
      simp only [OpState.isExtra]
      congr 1
      apply propext
      constructor
      · rintro ⟨h0, h⟩
        exact ⟨h0, List.mem_of_mem_erase h⟩
      · rintro ⟨h0, h⟩
        exact ⟨h0, (List.mem_erase_of_ne (by omega)).mpr h⟩
    · intro h
      simp only [OpState.isExtra, decide_eq_false_iff_not] at h
      exact absurd ⟨by omega, hk⟩ h
  · rw [if_neg hk]
    refine ⟨by simp [OpState.isExtra, hk], fun _ _ => rfl, ?_, fun _ => rfl⟩
    intro h
    simp [OpState.isExtra, hk] at h

example : ((⟨true, some 0, -1, [true, true, true], [3, 2], [], []⟩ : OpState).offExtra
    { steps := 3 } 3).extra = [2] ∧ [3, 2].Nodup := by decide

/-- C25 (part).  The list of active extra steps has no duplicates after any history in which
`switch_active_extra_step` is not used to switch to a step that is already an active extra step. -/
theorem C25_no_duplicates_partial (c : St → SCfg) (es : List Ev) (o : Op)
    (h : (Op.fresh c).runEv c es = some o)
    (hsw : ∀ (pre : List Ev) (off on : Int) (post : List Ev) (o1 : Op),
      es = pre ++ .switchExtra off on :: post → (Op.fresh c).runEv c pre = some o1 →
      (o1.st o1.cur).isExtra on = false) (s : St) : (o.st s).extra.Nodup := by
  suffices H : ∀ (es pre0 : List Ev) (o0 o : Op), (Op.fresh c).runEv c pre0 = some o0 →
      (∀ s, ND (o0.st s)) → o0.runEv c es = some o →
      (∀ (pre : List Ev) (off on : Int) (post : List Ev) (o1 : Op),
        pre0 ++ es = pre ++ .switchExtra off on :: post → (Op.fresh c).runEv c pre = some o1 →
        (o1.st o1.cur).isExtra on = false) → ∀ s, ND (o.st s) from
    (H es [] (Op.fresh c) o rfl (fun s => ⟨by simp [Op.fresh], by simp [Op.fresh]⟩) h
      (by simpa using hsw) s).1
  intro es
  induction es with
  | nil => intro pre0 o0 o _ hnd hr _; cases hr; exact hnd
  | cons ev es ih =>
    intro pre0 o0 o h0 hnd hr hsw
    simp only [Op.runEv, Option.bind_eq_some_iff] at hr
    obtain ⟨o1, h1, h2⟩ := hr
    refine ih (pre0 ++ [ev]) o1 o ?_ ?_ h2 (by simpa using hsw)
    · have happ : ∀ (l : List Ev) (a : Op), a.runEv c (l ++ [ev]) =
          (a.runEv c l).bind (fun b => b.step c ev) := by
        intro l
        induction l with
        | nil =>
          intro a
          simp only [List.nil_append, Op.runEv, Option.bind_some]
          cases a.step c ev <;> rfl
        | cons x l ih =>
          intro a
          simp only [List.cons_append, Op.runEv]
          cases a.step c x with
          | none => rfl
          | some b => simpa using ih b
      rw [happ, h0]
      exact h1
    · refine nd_step hnd ?_ h1
      intro off on hev
      subst hev
      have := hsw pre0 off on es o0 rfl h0
      by_cases hneg : 0 ≤ on
      · simp only [OpState.isExtra, decide_eq_false_iff_not] at this
        exact fun hm => this ⟨hneg, hm⟩
      · intro hm
        have hb := ((inv_fresh c).runEv pre0 h0).basic o0.cur
        have := (hb.extra _ hm).1
        omega

example : ∃ o, (Op.fresh demo).runEv demo [.start {} {} 0, .onExtra {} 2, .onExtra {} 2,
    .switchExtra 2 3] = some o ∧ (o.st .run).extra = [3] := ⟨_, rfl, by decide⟩

/-- C25 (part).  One evaluation first evaluates the active extra steps as `passWithSkip` says: in
order, each once, those whose signal is gone being removed, but a step standing after a removed one
is passed over in this cycle; then steps are switched on by their signals. -/
theorem C25_evaluation_exact (c : SCfg) (e : Env) (r : OpState) (hnd : r.extra.Nodup)
    (hrange : ∀ k ∈ r.extra, 1 ≤ k ∧ k ≤ c.steps) :
    ∃ rest more, evaluated (r.evaluate c e).1.log =
        evaluated r.log ++ (passWithSkip e.offSig r.extra).1 ++ rest ∧
      (r.evaluate c e).1.extra = (passWithSkip e.offSig r.extra).2 ++ more := by
  unfold OpState.evaluate OpState.enableLoop
  dsimp only
  have h1 := loop_pass c e r.extra [] r.extra.length
    { r with log := r.log ++ [.eval none] } rfl (by simpa using hnd) (by simpa using hrange)
    (Nat.le_refl _)
  simp only [List.length_nil, List.nil_append] at h1
  obtain ⟨x, y, hx, hy⟩ := enable_log c e (List.range c.steps)
    (({ r with log := r.log ++ [.eval none] } : OpState).extraLoop c e r.extra.length 0)
  obtain ⟨⟨z, hz⟩, hw⟩ := evalMain_log c e ((List.range c.steps).foldl (fun r i =>
      if i + 1 ∈ r.extra then r
      else if e.onSig i then (r.onExtraPos c e (i + 1)).1 else r)
    (({ r with log := r.log ++ [.eval none] } : OpState).extraLoop c e r.extra.length 0))
  refine ⟨evaluated x ++ evaluated z, y, ?_, ?_⟩
  · rw [hz, hx, evaluated_append, evaluated_append, h1.1]
    simp [evaluated]
  · rw [hw, hy, h1.2]

example : passWithSkip (fun i => i == 1) [2, 3, 1] = ([2, 1], [3, 1]) := by decide

/-- C25 (part).  After any history without `switch_active_extra_step`, a cycle in which no active
extra step has to be switched off evaluates each of them exactly as listed and keeps all of them. -/
theorem C25_all_evaluated_partial (c : St → SCfg) (es : List Ev) (o : Op)
    (h : (Op.fresh c).runEv c es = some o) (hsw : ∀ off on, Ev.switchExtra off on ∉ es)
    (e : Env) (hoff : ∀ k, (o.st o.cur).isExtra (k + 1) = true → e.offSig k.toNat = false) :
    ∃ rest more, evaluated ((o.evalCur c e).st o.cur).log =
        evaluated (o.st o.cur).log ++ (o.st o.cur).extra ++ rest ∧
      ((o.evalCur c e).st o.cur).extra = (o.st o.cur).extra ++ more := by
  have hb := ((inv_fresh c).runEv es h).basic o.cur
  have hnd := C25_no_duplicates_partial c es o h (by
    intro pre off on post o1 he _
    exact absurd (by rw [he]; simp) (hsw off on)) o.cur
  have hp := pass_no_off e.offSig (o.st o.cur).extra (by
    intro k hk
    have hk1 := (hb.extra k hk).1
    have := hoff ((k : Int) - 1) (by
      simp only [OpState.isExtra, decide_eq_true_eq]
      refine ⟨by omega, ?_⟩
      have e : ((k : Int) - 1 + 1).toNat = k := by omega
      rw [e]; exact hk)
    have e2 : ((k : Int) - 1).toNat = k - 1 := by omega
    rwa [e2] at this)
  have := C25_evaluation_exact (c o.cur) e (o.st o.cur) hnd hb.extra
  rw [hp] at this
  simpa [Op.evalCur, Op.upd] using this

example : ∃ o, (Op.fresh demo).runEv demo [.start {} {} 0, .onExtra {} 2, .onExtra {} 3] = some o ∧
    (o.st o.cur).extra = [2, 3] ∧
    evaluated ((o.evalCur demo {}).st o.cur).log = [1, 2, 3] ++ [2, 3] ++ [1] :=
  ⟨_, rfl, by decide, by decide⟩

/-- C25 is violated: a cycle in which one extra step is switched off by its signal passes over the
extra step listed after it, which stays active but is not evaluated. -/
theorem C25_evaluated_violated :
    ¬ ∀ (c : St → SCfg) (es : List Ev) (o : Op) (e : Env), (Op.fresh c).runEv c es = some o →
      ∀ k, k ∈ ((o.evalCur c e).st o.cur).extra → k ∈ (o.st o.cur).extra →
        k ∈ (evaluated ((o.evalCur c e).st o.cur).log).drop
          (evaluated (o.st o.cur).log).length := by
  intro H
  have := H demo [.start {} {} 0, .onExtra {} 2, .onExtra {} 3] _ { offSig := fun i => i == 1 } rfl 3
    (by decide) (by decide)
  revert this
  decide

/-- C25 is violated: a request refused because the check of the step fails returns 1 but leaves the
step in the list of active extra steps (without having been initialised). -/
theorem C25_refused_violated :
    ¬ ∀ (c : St → SCfg) (es : List Ev) (o : Op) (e : Env) (r' : OpState) (k : Int),
      (Op.fresh c).runEv c es = some o → (o.st o.cur).onExtra (c o.cur) e k = some (r', 1) →
      ∀ j, r'.isExtra j = (o.st o.cur).isExtra j := by
  intro H
  have := H demo [.start {} {} 0] _ { checkOk := fun _ => false } _ 2 rfl rfl 2
  revert this
  decide

/-- C25 (part).  A request refused because the step number is out of range leaves the state as it
was; so does a request for the step that is the active main step. -/
theorem C25_refused_partial (c : SCfg) (e : Env) (r : OpState) (k : Int)
    (h : k < 0 ∨ (c.steps : Int) < k ∨ (1 ≤ k ∧ (r.activeStep : Int) = k)) :
    ∃ code, r.onExtra c e k = some (r, code) ∧ (code = 1 ↔ k < 0 ∨ (c.steps : Int) < k) := by
  unfold OpState.onExtra OpState.onExtraPos
  by_cases h0 : k < 0
  · exact ⟨1, by simp [h0], by simp [h0]⟩
  · have h1 : k ≠ 0 := by
      intro hk
      subst hk
      rcases h with h | h | h <;> omega
    rw [if_neg h0, if_neg h1]
    by_cases h2 : c.steps < k.toNat
    · rw [if_pos h2]
      exact ⟨1, rfl, by simp; omega⟩
    · rw [if_neg h2]
      have h3 : (r.activeStep : Int) = k := by
        rcases h with h | h | h
        · omega
        · omega
        · exact h.2
      have hm : r.main = some (k.toNat - 1) := by
        unfold OpState.activeStep at h3
        split at h3
        · rename_i m hm
          rw [hm]
          congr 1
          omega
        · exact absurd h3.symm h1
      rw [if_pos hm]
      refine ⟨0, rfl, by simp; omega⟩

example : (⟨true, some 0, -1, [true, false], [2], [], []⟩ : OpState).onExtra { steps := 2 } {} 3 =
    some (⟨true, some 0, -1, [true, false], [2], [], []⟩, 1) := by decide

/-- C25 is violated: `switch_active_extra_step` puts a step into the list a second time. -/
theorem C25_duplicates_violated :
    ¬ ∀ (c : St → SCfg) (es : List Ev) (o : Op), (Op.fresh c).runEv c es = some o →
      ∀ s, (o.st s).extra.Nodup := by
  intro H
  have := H demo [.start {} {} 0, .onExtra {} 2, .onExtra {} 3, .switchExtra 2 3] _ rfl .run
  revert this
  decide

/-- C25 is violated: an extra step that is made the main step and then left is finalised, but still
reported as an active extra step. -/
theorem C25_main_step_violated :
    ¬ ∀ (c : St → SCfg) (es : List Ev) (o : Op), (Op.fresh c).runEv c es = some o →
      ∀ i : Nat, (o.st o.cur).isExtra (i + 1) = true → inUse (o.st o.cur).log (some i) = true := by
  intro H
  have := H demo [.start {} {} 0, .onExtra {} 2, .toStep {} 2, .toStep {} 3] _ rfl 1 (by decide)
  revert this
  decide

/-- C25 is violated: requesting the extra step number 0 while a step is active is undefined
behaviour (the code reads `steps[ -1 ]`). -/
theorem C25_zero_violated :
    ¬ ∀ (c : St → SCfg) (es : List Ev) (o : Op) (ev : Ev), (Op.fresh c).runEv c es = some o →
      (o.step c ev).isSome := by
  intro H
  have := H demo [.start {} {} 0] _ (.onExtra {} 0) rfl
  revert this
  decide

end Ptusa.Operation
