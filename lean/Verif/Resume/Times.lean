import Verif.Resume.Lemmas

namespace Ptusa.Resume

open Operation (St SCfg Env Call OpState Op Ev Basic Inv)

/-! ### What calls do with the times -/

theorem stamp_frame (l : List Call) : ∀ x : T, (l.foldl stamp1 x).now = x.now ∧ (l.foldl stamp1 x).dxStep = x.dxStep ∧
    (l.foldl stamp1 x).runTime = x.runTime ∧ (l.foldl stamp1 x).op = x.op := by
  induction l with
  | nil => intro x; exact ⟨rfl, rfl, rfl, rfl⟩
  | cons a l ih =>
    intro x
    have h1 : (stamp1 x a).now = x.now ∧ (stamp1 x a).dxStep = x.dxStep ∧ (stamp1 x a).runTime = x.runTime ∧
        (stamp1 x a).op = x.op := by
      unfold stamp1; split <;> exact ⟨rfl, rfl, rfl, rfl⟩
    obtain ⟨a1, a2, a3, a4⟩ := ih (stamp1 x a)
    exact ⟨a1.trans h1.1, a2.trans h1.2.1, a3.trans h1.2.2.1, a4.trans h1.2.2.2⟩

theorem stamp_start (l : List Call) (i : Nat) : ∀ x : T,
    (l.foldl stamp1 x).start i = if .init (some i) ∈ l then x.now else x.start i := by
  induction l with
  | nil => intro x; rfl
  | cons a l ih =>
    intro x
    rw [List.foldl_cons, ih]
    have hn : (stamp1 x a).now = x.now := (stamp_frame [a] x).1
    rw [hn]
    by_cases h : Call.init (some i) ∈ l
    · rw [if_pos h, if_pos (List.mem_cons_of_mem _ h)]
    · rw [if_neg h]
      by_cases ha : a = .init (some i)
      · subst ha; simp [stamp1]
      · rw [if_neg (by simp [h, Ne.symm ha])]
        unfold stamp1
        split <;> try rfl
        rename_i j
        show (if i = j then x.now else x.start i) = x.start i
        rw [if_neg]
        rintro rfl
        exact ha rfl

theorem stamp_runStart (l : List Call) : ∀ x : T,
    (l.foldl stamp1 x).runStart = if .init none ∈ l ∨ .fin none ∈ l then x.now else x.runStart := by
  induction l with
  | nil => intro x; rfl
  | cons a l ih =>
    intro x
    rw [List.foldl_cons, ih]
    have hn : (stamp1 x a).now = x.now := (stamp_frame [a] x).1
    rw [hn]
    by_cases h : Call.init none ∈ l ∨ Call.fin none ∈ l
    · rw [if_pos h, if_pos (h.imp (List.mem_cons_of_mem _) (List.mem_cons_of_mem _))]
    · rw [if_neg h]
      rw [not_or] at h
      rcases a with (_ | i) | (_ | i) | (_ | i) <;> simp [stamp1, h.1, h.2]

theorem stamp_evals (l : List Call) (h : ∀ x ∈ l, ∃ i, x = Call.eval i) : ∀ x : T, l.foldl stamp1 x = x := by
  induction l with
  | nil => intro x; rfl
  | cons a l ih =>
    intro x
    obtain ⟨i, rfl⟩ := h a List.mem_cons_self
    exact ih (fun y hy => h y (List.mem_cons_of_mem _ hy)) x

theorem newCalls_of {o o' : Op} {l : List Call} (h : (o'.st .run).log = (o.st .run).log ++ l) : newCalls o o' = l := by
  unfold newCalls
  rw [h]
  simp

theorem lift_frame (x : T) (o' : Op) : (lift x o').now = x.now ∧ (lift x o').dxStep = x.dxStep ∧
    (lift x o').runTime = x.runTime ∧ (lift x o').op = o' :=
  ⟨(stamp_frame _ x).1, (stamp_frame _ x).2.1, (stamp_frame _ x).2.2.1, rfl⟩

theorem lift_same (x : T) (o' : Op) (h : (o'.st .run).log = (x.op.st .run).log) : lift x o' = { x with op := o' } := by
  unfold lift
  rw [newCalls_of (l := []) (by simp [h])]
  rfl

theorem lift_evals {x : T} {o' : Op} {l : List Call} (h : (o'.st .run).log = (x.op.st .run).log ++ l)
    (g : ∀ y ∈ l, ∃ i, y = Call.eval i) : lift x o' = { x with op := o' } := by
  unfold lift
  rw [newCalls_of h, stamp_evals l g]

theorem lift_grow (x : T) (o' : Op) (h : Grow (x.op.st .run) (o'.st .run)) : (lift x o').runStart = x.runStart := by
  obtain ⟨l, hl, gl⟩ := h
  show ((newCalls x.op o').foldl stamp1 x).runStart = _
  rw [newCalls_of hl, stamp_runStart, if_neg]
  rintro (h | h)
  · exact (gl _ h).1 rfl
  · exact (gl _ h).2 rfl

theorem lift_bound (x : T) (o' : Op) (h : x.runStart ≤ x.now ∧ ∀ i, x.start i ≤ x.now) :
    (lift x o').runStart ≤ (lift x o').now ∧ ∀ i, (lift x o').start i ≤ (lift x o').now := by
  rw [(lift_frame x o').1]
  refine ⟨?_, fun i => ?_⟩
  · show ((newCalls x.op o').foldl stamp1 x).runStart ≤ _
    rw [stamp_runStart]
    split
    · exact Nat.le_refl _
    · exact h.1
  · show ((newCalls x.op o').foldl stamp1 x).start i ≤ _
    rw [stamp_start]
    split
    · exact Nat.le_refl _
    · exact h.2 i

/-! ### The times do not disturb the operation -/

theorem keep_frame (x : T) : (keep x).op = x.op ∧ (keep x).now = x.now ∧ (keep x).start = x.start ∧
    (keep x).dx = x.dx ∧ (keep x).runStart = x.runStart ∧ (keep x).runTime = x.runTime := by
  unfold keep; split <;> exact ⟨rfl, rfl, rfl, rfl, rfl, rfl⟩

theorem addDx_frame (x : T) : (addDx x).op = x.op ∧ (addDx x).now = x.now ∧ (addDx x).start = x.start ∧
    (addDx x).dxStep = x.dxStep ∧ (addDx x).runStart = x.runStart ∧ (addDx x).runTime = x.runTime := by
  unfold addDx; split <;> exact ⟨rfl, rfl, rfl, rfl, rfl, rfl⟩

theorem toRun_op (c : St → SCfg) (e e2 : Env) (k : Int) (o : Op) (x : T) : (toRun c e e2 k o x).op = o.toRun c e e2 k := rfl

theorem start_op (c : St → SCfg) (e e2 : Env) (k : Int) (x : T) : (start c e e2 k x).op = x.op.start c e e2 k := by
  unfold start
  cases h : x.op.cur <;> try rfl
  · dsimp only
    by_cases hu : (c .unpausing).empty = true
    · rw [if_pos hu, toRun_op]; unfold Op.start; rw [h]; dsimp only; rw [if_pos hu]
    · rw [if_neg hu]; rfl
  · dsimp only
    rw [toRun_op]; unfold Op.start; rw [h]

theorem step_op {c : St → SCfg} {x y : T} {v : Nat × Ev} (h : step c x v = some y) : x.op.step c v.2 = some y.op := by
  obtain ⟨d, ev⟩ := v
  cases ev <;> simp only [step, Option.some.injEq, Option.map_eq_some_iff] at h
  case start e e2 k => subst h; rw [start_op]; rfl
  case startAgain e e2 => subst h; rw [start_op]; rfl
  case pause e e2 => subst h; unfold pause; split <;> rfl
  case stop e e2 => subst h; unfold leave; split <;> rfl
  case switchOff e e2 => subst h; unfold leave; split <;> rfl
  case finalize =>
    subst h
    unfold finalize leave
    split
    · rename_i h; simp only [Op.step, Op.finalize]; rw [if_pos h]
    · split <;> rfl
  all_goals (obtain ⟨o', h1, rfl⟩ := h; exact h1)

theorem runFrom_op {c : St → SCfg} (h : List (Nat × Ev)) : ∀ {x y : T}, runFrom c x h = some y →
    x.op.runEv c (h.map Prod.snd) = some y.op := by
  induction h with
  | nil => intro x y e; cases e; rfl
  | cons v h ih =>
    intro x y e
    unfold runFrom at e
    cases h1 : step c x v with
    | none => rw [h1] at e; cases e
    | some z =>
      rw [h1] at e
      show (x.op.step c v.2).bind _ = _
      rw [step_op h1]
      exact ih e

/-! ### Bounds -/

/-- Nothing was started in the future. -/
def Bound (x : T) : Prop := x.runStart ≤ x.now ∧ ∀ i, x.start i ≤ x.now

theorem Bound.keep {x : T} (h : Bound x) : Bound (keep x) := by
  unfold Bound
  rw [(keep_frame x).2.1, (keep_frame x).2.2.1, (keep_frame x).2.2.2.2.1]
  exact h

theorem Bound.addDx {x : T} (h : Bound x) : Bound (addDx x) := by
  unfold Bound
  rw [(addDx_frame x).2.1, (addDx_frame x).2.2.1, (addDx_frame x).2.2.2.2.1]
  exact h

theorem Bound.toRun {x : T} (h : Bound x) (c : St → SCfg) (e e2 : Env) (k : Int) (o : Op) : Bound (toRun c e e2 k o x) := by
  have h1 : ∀ o', Bound (lift x o') := fun o' => lift_bound x o' h
  unfold Resume.toRun
  refine lift_bound _ _ ?_
  split
  · split
    · exact (h1 _).addDx
    · exact h1 _
  · split
    · exact (h1 _).addDx
    · exact h1 _

theorem Bound.start {x : T} (h : Bound x) (c : St → SCfg) (e e2 : Env) (k : Int) : Bound (start c e e2 k x) := by
  have h1 : ∀ o', Bound (lift x o') := fun o' => lift_bound x o' h
  unfold Resume.start
  split
  · exact h1 _
  · exact h1 _
  · split
    · exact h.toRun _ _ _ _ _
    · exact h1 _
  · exact h.toRun _ _ _ _ _
  · exact h1 _

theorem Bound.leave {x : T} (h : Bound x) (o' : Op) : Bound (leave o' x) := by
  unfold Resume.leave
  split
  · exact lift_bound _ _ h.keep
  · exact lift_bound _ _ h

theorem Bound.step {c : St → SCfg} {x y : T} {v : Nat × Ev} (hb : Bound x) (h : step c x v = some y) : Bound y := by
  obtain ⟨d, ev⟩ := v
  have h0 : Bound { x with now := x.now + d } := ⟨Nat.le_add_right_of_le hb.1, fun i => Nat.le_add_right_of_le (hb.2 i)⟩
  cases ev <;> simp only [Resume.step, Option.some.injEq, Option.map_eq_some_iff] at h
  case start e e2 k => subst h; exact h0.start _ _ _ _
  case startAgain e e2 => subst h; exact h0.start _ _ _ _
  case pause e e2 =>
    subst h; unfold pause; split
    · exact lift_bound _ _ h0.keep
    · exact lift_bound _ _ h0
  case stop e e2 => subst h; exact h0.leave _
  case switchOff e e2 => subst h; exact h0.leave _
  case finalize =>
    subst h
    unfold finalize
    split
    · exact h0
    · exact h0.leave _
  all_goals (obtain ⟨o', h1, rfl⟩ := h; exact lift_bound _ _ h0)

theorem Bound.runFrom {c : St → SCfg} (h : List (Nat × Ev)) : ∀ {x y : T}, Bound x → runFrom c x h = some y → Bound y := by
  induction h with
  | nil => intro x y hb e; cases e; exact hb
  | cons v h ih =>
    intro x y hb e
    unfold Resume.runFrom at e
    cases h1 : Resume.step c x v with
    | none => rw [h1] at e; cases e
    | some z => rw [h1] at e; exact ih (hb.step h1) e

theorem Bound.run {c : St → SCfg} {h : List (Nat × Ev)} {x : T} (e : run c h = some x) : Bound x :=
  Bound.runFrom h ⟨Nat.le_refl _, fun _ => Nat.le_refl _⟩ e

/-! ### Pausing -/

theorem paused_times {c : St → SCfg} {x y : T} {v : Nat × Ev} (hp : Paused x.op) (h : step c x v = some y)
    (hy : Paused y.op) : y.dxStep = x.dxStep ∧ y.runTime = x.runTime := by
  have hr : x.op.cur ≠ .run := by rcases hp with e | e | e <;> rw [e] <;> decide
  have hyr : y.op.cur ≠ .run := by rcases hy with e | e | e <;> rw [e] <;> decide
  have hyi : y.op.cur ≠ .idle := by rcases hy with e | e | e <;> rw [e] <;> decide
  have hl : ∀ o', (lift { x with now := x.now + v.1 } o').dxStep = x.dxStep ∧
      (lift { x with now := x.now + v.1 } o').runTime = x.runTime := fun o' =>
    ⟨(lift_frame _ o').2.1, (lift_frame _ o').2.2.1⟩
  have ks : ∀ e e2 k, (start c e e2 k { x with now := x.now + v.1 }).op.cur ≠ .run →
      (start c e e2 k { x with now := x.now + v.1 }).dxStep = x.dxStep ∧
      (start c e e2 k { x with now := x.now + v.1 }).runTime = x.runTime := by
    intro e e2 k hn
    unfold start at hn ⊢
    dsimp only at hn ⊢
    rcases hp with h | h | h
    · simp only [h]; exact hl _
    · simp only [h] at hn ⊢
      split
      · rename_i hu; rw [if_pos hu] at hn; exact absurd rfl hn
      · exact hl _
    · simp only [h] at hn; exact absurd rfl hn
  obtain ⟨d, ev⟩ := v
  cases ev <;> simp only [step, Option.some.injEq, Option.map_eq_some_iff] at h
  case start e e2 k => subst h; exact ks _ _ _ hyr
  case startAgain e e2 => subst h; exact ks _ _ _ hyr
  case pause e e2 => subst h; unfold pause; rw [if_neg hr]; exact hl _
  case stop e e2 => subst h; unfold leave; rw [if_neg hr]; exact hl _
  case switchOff e e2 => subst h; unfold leave; rw [if_neg hr]; exact hl _
  case finalize =>
    subst h
    exfalso
    apply hyi
    unfold finalize
    split
    · assumption
    · rename_i hi
      unfold leave
      rw [if_neg hr]
      show (Op.finalize _).cur = _
      unfold Op.finalize
      rw [if_neg hi]
  all_goals (obtain ⟨o', h1, rfl⟩ := h; exact hl _)

theorem stays_times {c : St → SCfg} (h : List (Nat × Ev)) : ∀ {x y : T} {o : Op}, runFrom c x h = some y →
    StaysPaused c x.op (h.map Prod.snd) o → y.dxStep = x.dxStep ∧ y.runTime = x.runTime ∧ y.op = o := by
  induction h with
  | nil => rintro x y o e ⟨_, rfl⟩; cases e; exact ⟨rfl, rfl, rfl⟩
  | cons v h ih =>
    rintro x y o e ⟨hp, o1, h1, h2⟩
    unfold runFrom at e
    cases hz : step c x v with
    | none => rw [hz] at e; cases e
    | some z =>
      rw [hz] at e
      have ho := step_op hz
      have : z.op = o1 := by
        have := ho.symm.trans h1
        exact Option.some.inj this
      subst this
      have hp1 : Paused z.op := by
        cases h with
        | nil => exact h2.1
        | cons _ _ => exact h2.1
      obtain ⟨a, b, d⟩ := ih e h2
      obtain ⟨a1, b1⟩ := paused_times hp hz hp1
      exact ⟨a.trans a1, b.trans b1, d⟩

theorem init_log {c : SCfg} {e : Env} {k : Nat} {r : OpState} (h1 : 1 ≤ k) (h2 : k ≤ c.steps)
    (hz : e.zeroDur (k - 1) = false) :
    ∃ l, (r.init c e k).log = r.log ++ l ∧ Call.init (some (k - 1)) ∈ l := by
  unfold OpState.init
  dsimp only
  rw [if_neg (by omega)]
  obtain ⟨l, hl, _⟩ := Grow.foldInit
    (OpState.toStep c e k { r with mode := true, log := r.log ++ [.init none], main := none }).extra
    (OpState.toStep c e k { r with mode := true, log := r.log ++ [.init none], main := none })
  have ht : (OpState.toStep c e k { r with mode := true, log := r.log ++ [.init none], main := none }).log =
      r.log ++ [.init none] ++ [.init (some (k - 1)), .eval (some (k - 1))] := by
    unfold OpState.toStep
    rw [if_neg (by omega)]
    dsimp only
    have : (k : Int).toNat = k := by omega
    rw [this, hz]
    simp [OpState.finMain, OpState.initStep, OpState.evalStep]
  refine ⟨[.init none] ++ [.init (some (k - 1)), .eval (some (k - 1))] ++ l, ?_, by simp⟩
  rw [hl, ht]
  simp

theorem init_log_none (c : SCfg) (e : Env) (k : Int) (r : OpState) :
    ∃ l, (r.init c e k).log = r.log ++ l ∧ Call.init none ∈ l := by
  unfold OpState.init
  dsimp only
  split
  · exact ⟨[.init none], rfl, by simp⟩
  · obtain ⟨l, hl, _⟩ := (Grow.toStep c e k { r with mode := true, log := r.log ++ [.init none], main := none }).trans
      (Grow.foldInit
      (OpState.toStep c e k { r with mode := true, log := r.log ++ [.init none], main := none }).extra
      (OpState.toStep c e k { r with mode := true, log := r.log ++ [.init none], main := none }))
    exact ⟨.init none :: l, by rw [hl]; simp, by simp⟩

end Ptusa.Resume

namespace Ptusa.Resume

open Operation (St SCfg Env Call OpState Op Ev Basic Inv)

/-! ### Going on -/

theorem toRun_resume {c : St → SCfg} {e e2 : Env} {k : Int} {o : Op} {z : T} {m : Nat}
    (hlog : (o.st .run).log = (z.op.st .run).log) (hm : m < (c .run).steps) (hrs : o.runStep = (m : Int) + 1)
    (hk : k ≤ 0 ∨ k = (m : Int) + 1) (hl : (o.st .run).act.length = (c .run).steps)
    (hx : ∀ j ∈ (o.st .run).saved, 1 ≤ j ∧ j ≤ (c .run).steps) (hz : e.zeroDur m = false) (he : NoChange e2) :
    ((toRun c e e2 k o z).op.st .run).main = some m ∧
    ((toRun c e e2 k o z).op.st .run).extra = (o.st .run).saved ∧
    ((toRun c e e2 k o z).op.st .run).act[m]? = some true ∧
    (∀ j ∈ (o.st .run).saved, ((toRun c e e2 k o z).op.st .run).act[j - 1]? = some true) ∧
    stepTime (toRun c e e2 k o z) = z.dxStep ∧ (toRun c e e2 k o z).now = z.now := by
  have hkk : (if 0 < k then k else if 0 < o.runStep then o.runStep else 1) = ((m + 1 : Nat) : Int) := by
    rw [hrs]; push_cast
    split
    · omega
    · rw [if_pos (by omega)]
  unfold toRun
  rw [hkk]
  dsimp only
  have ho2 : ((o.upd .run (o.st .run).load).enter c e .run ((m + 1 : Nat) : Int)).st .run =
      ((o.st .run).load).init (c .run) e ((m + 1 : Nat) : Int) := by simp [Op.enter, Op.upd]
  generalize ho : (o.upd .run (o.st .run).load).enter c e .run ((m + 1 : Nat) : Int) = o2 at ho2
  have hc2 : o2.cur = .run := by rw [← ho]; rfl
  obtain ⟨hm2, hx2⟩ := init_main (c := c .run) (e := e) (k := m + 1) (r := (o.st .run).load) (by omega) (by omega)
  obtain ⟨ha2, hb2⟩ := init_act (c := c .run) (e := e) (k := m + 1) (r := (o.st .run).load) (by omega) (by omega) hl hx
  obtain ⟨l, hlg, hin⟩ := init_log (c := c .run) (e := e) (k := m + 1) (r := (o.st .run).load) (by omega) (by omega)
    (by simpa using hz)
  rw [← ho2] at hm2 hx2 ha2 hb2 hlg
  simp only [Nat.add_sub_cancel] at hm2 ha2 hin
  have hsel : (if 0 < k then (if k = o.runStep then addDx (lift z o2) else lift z o2)
      else if 0 < o.runStep then addDx (lift z o2) else lift z o2) = addDx (lift z o2) := by
    rcases hk with hk | hk
    · rw [if_neg (by omega), if_pos (by omega)]
    · rw [if_pos (by omega), if_pos (by omega)]
  rw [hsel]
  have hlz : (o2.st .run).log = (z.op.st .run).log ++ l := by rw [hlg, ← hlog]; rfl
  obtain ⟨l2, hl2, gl2⟩ := evaluate_quiet (c .run) he (o2.st .run)
  have hev : (o2.evalCur c e2).st .run = { o2.st .run with log := (o2.st .run).log ++ l2 } := by
    rw [← hl2]; simp [Op.evalCur, Op.upd, hc2]
  have haop : (addDx (lift z o2)).op = o2 := (addDx_frame _).1
  have hlift : lift (addDx (lift z o2)) (o2.evalCur c e2) = { addDx (lift z o2) with op := o2.evalCur c e2 } := by
    refine lift_evals ?_ gl2
    rw [hev, haop]
  rw [hlift]
  have hmn : ((o2.evalCur c e2).st .run).main = some m := by rw [hev]; exact hm2
  have hdx : addDx (lift z o2) = { lift z o2 with dx := fun j => if j = m then z.dxStep else (lift z o2).dx j } := by
    unfold addDx
    rw [(lift_frame z o2).2.2.2, hm2]
    simp only [(lift_frame z o2).2.1, (lift_frame z o2).2.2.2]
  refine ⟨hmn, ?_, ?_, ?_, ?_, ?_⟩
  · show ((o2.evalCur c e2).st .run).extra = _
    rw [hev]; exact hx2
  · show ((o2.evalCur c e2).st .run).act[m]? = _
    rw [hev]; exact ha2 hz
  · intro j hj
    show ((o2.evalCur c e2).st .run).act[j - 1]? = _
    rw [hev]; exact hb2 j hj
  · unfold stepTime
    dsimp only
    rw [hmn, hdx]
    have hs : (lift z o2).start m = z.now := by
      show ((newCalls z.op o2).foldl stamp1 z).start m = _
      rw [newCalls_of hlz, stamp_start, if_pos hin]
    simp [evalTime, hs, (lift_frame z o2).1]
  · show (addDx (lift z o2)).now = _
    rw [(addDx_frame _).2.1, (lift_frame z o2).1]

theorem pause_run {c : St → SCfg} {e e2 : Env} {o : Op} (h : o.cur = .run) :
    ((o.pause c e e2).st .run) = (o.st .run).save.finalize ∧ (o.pause c e e2).runStep = (o.st .run).activeStep := by
  unfold Op.pause
  rw [h]
  dsimp only
  split <;> simp [Op.evalCur, Op.enter, Op.fin, Op.upd]

theorem run_append {c : St → SCfg} (h g : List (Nat × Ev)) : ∀ x : T,
    runFrom c x (h ++ g) = (runFrom c x h).bind fun y => runFrom c y g := by
  induction h with
  | nil => intro x; rfl
  | cons v h ih =>
    intro x
    simp only [List.cons_append, runFrom]
    cases step c x v with
    | none => rfl
    | some z => exact ih z

/-- The invariant of the working time. -/
def Worked (x : T) (w : Nat) : Prop :=
  (x.op.cur = .run → x.runTime + (x.now - x.runStart) = w) ∧
  ((x.op.cur = .starting ∨ Paused x.op) → x.runTime = w)

theorem toRun_time (c : St → SCfg) (e e2 : Env) (k : Int) (o : Op) (z : T) (hlog : (o.st .run).log = (z.op.st .run).log) :
    (toRun c e e2 k o z).runTime = z.runTime ∧ (toRun c e e2 k o z).runStart = z.now ∧
    (toRun c e e2 k o z).now = z.now := by
  unfold toRun
  dsimp only
  generalize hq : (if 0 < k then k else if 0 < o.runStep then o.runStep else 1) = q
  have ho2 : ((o.upd .run (o.st .run).load).enter c e .run q).st .run =
      ((o.st .run).load).init (c .run) e q := by simp [Op.enter, Op.upd]
  generalize ho : (o.upd .run (o.st .run).load).enter c e .run q = o2 at ho2
  have hc2 : o2.cur = .run := by rw [← ho]; rfl
  obtain ⟨l, hl, hin⟩ := init_log_none (c .run) e q (o.st .run).load
  rw [← ho2] at hl
  have hlz : (o2.st .run).log = (z.op.st .run).log ++ l := by rw [hl, ← hlog]; rfl
  have h1 : (lift z o2).runTime = z.runTime ∧ (lift z o2).runStart = z.now ∧ (lift z o2).now = z.now := by
    refine ⟨(lift_frame z o2).2.2.1, ?_, (lift_frame z o2).1⟩
    show ((newCalls z.op o2).foldl stamp1 z).runStart = _
    rw [newCalls_of hlz, stamp_runStart, if_pos (Or.inl hin)]
  have h2 : (addDx (lift z o2)).runTime = z.runTime ∧ (addDx (lift z o2)).runStart = z.now ∧
      (addDx (lift z o2)).now = z.now := by
    obtain ⟨_, a2, _, _, a5, a6⟩ := addDx_frame (lift z o2)
    exact ⟨a6.trans h1.1, a5.trans h1.2.1, a2.trans h1.2.2⟩
  have h3 : ∀ y : T, y.op = o2 → (y.runTime = z.runTime ∧ y.runStart = z.now ∧ y.now = z.now) →
      (lift y (o2.evalCur c e2)).runTime = z.runTime ∧ (lift y (o2.evalCur c e2)).runStart = z.now ∧
      (lift y (o2.evalCur c e2)).now = z.now := by
    intro y hy g
    refine ⟨(lift_frame y _).2.2.1.trans g.1, ?_, (lift_frame y _).1.trans g.2.2⟩
    rw [lift_grow, g.2.1]
    rw [hy]
    have : (o2.evalCur c e2).st .run = ((o2.st .run).evaluate (c .run) e2).1 := by
      simp [Op.evalCur, Op.upd, hc2]
    rw [this]
    exact Grow.evaluate _ _ _
  apply h3
  · split
    · split
      · exact (addDx_frame _).1
      · rfl
    · split
      · exact (addDx_frame _).1
      · rfl
  · split
    · split
      · exact h2
      · exact h1
    · split
      · exact h2
      · exact h1

/-- What a call does with the working time. -/
def workNext (o o' : Op) (w d : Nat) : Nat :=
  if (o.cur = .idle ∨ o.cur = .starting) ∧ (o'.cur = .starting ∨ o'.cur = .run) ∧ o'.cur ≠ o.cur then 0
  else if o.cur = .run then w + d else w

theorem enter_run_time (c : St → SCfg) (e : Env) (x : T) (o : Op) (k : Int) (h : (o.st .run).log = (x.op.st .run).log) :
    (lift x (o.enter c e .run k)).runStart = x.now := by
  obtain ⟨l, hl, hin⟩ := init_log_none (c .run) e k (o.st .run)
  have : ((o.enter c e .run k).st .run).log = (x.op.st .run).log ++ l := by
    rw [← h, ← hl]; simp [Op.enter, Op.upd]
  show ((newCalls x.op _).foldl stamp1 x).runStart = _
  rw [newCalls_of this, stamp_runStart, if_pos (Or.inl hin)]

theorem start_worked {c : St → SCfg} {x : T} {w d : Nat} (hw : Worked x w) (hb : Bound x) (e e2 : Env) (k : Int) :
    Worked (start c e e2 k { x with now := x.now + d })
      (workNext x.op (start c e e2 k { x with now := x.now + d }).op w d) := by
  have hop := start_op c e e2 k { x with now := x.now + d }
  have hcur := Operation.start_cur c e e2 k x.op
  have hcur' : (start c e e2 k { x with now := x.now + d }).op.cur = _ := (congrArg Op.cur hop).trans hcur
  cases h : x.op.cur
  case idle =>
    have hst : start c e e2 k { x with now := x.now + d } =
        { lift { x with now := x.now + d } (x.op.start c e e2 k) with runTime := 0 } := by
      unfold start; dsimp only; rw [h]
    have ho : x.op.start c e e2 k = (x.op.fin .idle).enter c e (if (c .starting).empty then .run else .starting) 1 := by
      unfold Op.start; rw [h]
    have hne : (x.op.start c e e2 k).cur = .starting ∨ (x.op.start c e e2 k).cur = .run := by
      rw [ho]; simp only [Operation.enter_cur]; split
      · exact Or.inr rfl
      · exact Or.inl rfl
    have hw0 : workNext x.op (start c e e2 k { x with now := x.now + d }).op w d = 0 := by
      unfold workNext
      rw [hop]
      refine if_pos ⟨Or.inl h, hne, ?_⟩
      rw [h]
      rcases hne with g | g <;> (intro hh; exact absurd (g.symm.trans hh) (by decide))
    rw [hw0, hst]
    refine ⟨fun hr => ?_, fun _ => rfl⟩
    have hr' : (x.op.start c e e2 k).cur = .run := hr
    show 0 + ((lift { x with now := x.now + d } (x.op.start c e e2 k)).now -
      (lift { x with now := x.now + d } (x.op.start c e e2 k)).runStart) = 0
    rw [ho] at hr' ⊢
    simp only [Operation.enter_cur] at hr'
    rw [hr', enter_run_time _ _ _ _ _ (by simp [Op.fin, Op.upd]), (lift_frame _ _).1]
    simp
  case starting =>
    have hst : start c e e2 k { x with now := x.now + d } =
        { lift { x with now := x.now + d } (x.op.start c e e2 k) with runTime := 0 } := by
      unfold start; dsimp only; rw [h]
    have ho : x.op.start c e e2 k = (x.op.fin .starting).enter c e .run 1 := by
      unfold Op.start; rw [h]
    have hw0 : workNext x.op (start c e e2 k { x with now := x.now + d }).op w d = 0 := by
      unfold workNext
      rw [hop, ho, h]
      exact if_pos ⟨Or.inr rfl, Or.inr rfl, by simp⟩
    rw [hw0, hst]
    refine ⟨fun _ => ?_, fun _ => rfl⟩
    show 0 + ((lift { x with now := x.now + d } (x.op.start c e e2 k)).now -
      (lift { x with now := x.now + d } (x.op.start c e e2 k)).runStart) = 0
    rw [ho, enter_run_time _ _ _ _ _ (by simp [Op.fin, Op.upd]), (lift_frame _ _).1]
    simp
  case pause =>
    have hw0 : ∀ o', workNext x.op o' w d = w := by intro o'; simp [workNext, h]
    rw [hw0]
    have hrt := hw.2 (Or.inr (Or.inr (Or.inl h)))
    unfold start
    dsimp only
    rw [h]
    dsimp only
    split
    · obtain ⟨a, b, f⟩ := toRun_time c e e2 k (x.op.fin .pause) { x with now := x.now + d } (by simp [Op.fin, Op.upd])
      refine ⟨fun _ => ?_, fun _ => ?_⟩
      · rw [a, b, f]; simp [hrt]
      · rw [a]; exact hrt
    · rename_i hu
      refine ⟨fun hr => ?_, fun _ => ?_⟩
      · exfalso
        have : (x.op.start c e e2 k).cur = .run := hr
        rw [hcur, h] at this
        simp [Operation.diagram, hu] at this
      · rw [(lift_frame _ _).2.2.1]; exact hrt
  case unpausing =>
    have hw0 : ∀ o', workNext x.op o' w d = w := by intro o'; simp [workNext, h]
    rw [hw0]
    have hrt := hw.2 (Or.inr (Or.inr (Or.inr h)))
    unfold start
    dsimp only
    rw [h]
    dsimp only
    obtain ⟨a, b, f⟩ := toRun_time c e e2 k x.op { x with now := x.now + d } rfl
    refine ⟨fun _ => ?_, fun _ => ?_⟩
    · rw [a, b, f]; simp [hrt]
    · rw [a]; exact hrt
  all_goals
    have hst : start c e e2 k { x with now := x.now + d } = { x with now := x.now + d } := by
      have ho : x.op.start c e e2 k = x.op := by unfold Op.start; rw [h]
      unfold start; dsimp only; rw [h]; dsimp only; rw [ho]
      exact lift_same _ _ rfl
    rw [hst]
    have hw1 : x.op.cur = .run → workNext x.op x.op w d = w + d := by intro g; simp [workNext, g]
    refine ⟨fun hr => ?_, fun hr => ?_⟩
    · have hr' : x.op.cur = .run := hr
      rw [hw1 hr', ← hw.1 hr']
      have := hb.1
      show x.runTime + (x.now + d - x.runStart) = _
      omega
    · have hr' : x.op.cur = .starting ∨ Paused x.op := hr
      have hw2 : workNext x.op x.op w d = w := by
        rcases hr' with g | g | g | g <;> simp [workNext, g]
      rw [hw2]
      exact hw.2 hr'

end Ptusa.Resume

namespace Ptusa.Resume

open Operation (St SCfg Env Call OpState Op Ev Basic Inv)

theorem worked_vacuous {x : T} (w : Nat) (h : x.op.cur = .idle ∨ x.op.cur = .stopping ∨ x.op.cur = .stop ∨ x.op.cur = .completing) :
    Worked x w := by
  refine ⟨fun g => ?_, fun g => ?_⟩
  · rcases h with h | h | h | h <;> rw [h] at g <;> cases g
  · rcases g with g | g | g | g <;> rcases h with h | h | h | h <;> rw [h] at g <;> cases g

theorem stop_not_working (c : St → SCfg) (e e2 : Env) (o : Op) : (o.stop c e e2).cur = .idle ∨
    (o.stop c e e2).cur = .stopping ∨ (o.stop c e e2).cur = .stop ∨ (o.stop c e e2).cur = .completing := by
  rw [Operation.stop_cur]
  cases h : o.cur <;> simp [Operation.diagram]
  all_goals split <;> simp

theorem lift_worked {x : T} {w d : Nat} (hw : Worked x w) (hb : Bound x) {o' : Op} (hc : o'.cur = x.op.cur)
    (hg : Grow (x.op.st .run) (o'.st .run)) :
    Worked (lift { x with now := x.now + d } o') (workNext x.op o' w d) := by
  obtain ⟨a, _, b, f⟩ := lift_frame { x with now := x.now + d } o'
  have hr := lift_grow { x with now := x.now + d } o' hg
  refine ⟨fun g => ?_, fun g => ?_⟩
  · have g' : x.op.cur = .run := hc ▸ g
    have : workNext x.op o' w d = w + d := by simp [workNext, g']
    rw [this, ← hw.1 g', a, b, hr]
    have := hb.1
    show x.runTime + (x.now + d - x.runStart) = _
    omega
  · have g' : x.op.cur = .starting ∨ Paused x.op := by
      have g2 : o'.cur = .starting ∨ Paused o' := g
      unfold Paused at g2 ⊢
      rw [hc] at g2
      exact g2
    have : workNext x.op o' w d = w := by
      rcases g' with k | k | k | k <;> simp [workNext, k, hc]
    rw [this, b]
    exact hw.2 g'

theorem upd_grow {o : Op} {r : OpState} (h : Grow (o.st o.cur) r) : Grow (o.st .run) ((o.upd o.cur r).st .run) := by
  by_cases g : o.cur = .run
  · rw [g] at h ⊢
    simpa [Op.upd] using h
  · have : (o.upd o.cur r).st .run = o.st .run := by simp [Op.upd, Ne.symm g]
    rw [this]; exact Grow.refl _

theorem pause_worked {c : St → SCfg} {x : T} {w d : Nat} (hw : Worked x w) (hb : Bound x) (e e2 : Env) :
    Worked (pause c e e2 { x with now := x.now + d }) (workNext x.op (pause c e e2 { x with now := x.now + d }).op w d) := by
  by_cases h : x.op.cur = .run
  · have hn : ∀ o', workNext x.op o' w d = w + d := by intro o'; simp [workNext, h]
    rw [hn]
    unfold pause
    rw [if_pos h]
    have hcur : (x.op.pause c e e2).cur ≠ .run := by
      rw [Operation.pause_cur, h]; simp only [Operation.diagram]
      simp only [Option.getD_some]
      split <;> decide
    refine ⟨fun g => absurd g hcur, fun _ => ?_⟩
    rw [(lift_frame _ _).2.2.1]
    have h1 := hw.1 h
    have h2 := hb.1
    show x.runTime + (x.now + d - x.runStart) = w + d
    omega
  · unfold pause
    rw [if_neg h]
    by_cases hp : x.op.cur = .pausing
    · have hn : ∀ o', workNext x.op o' w d = w := by intro o'; simp [workNext, hp]
      rw [hn]
      have hcur : (x.op.pause c e e2).cur = .pause := by rw [Operation.pause_cur, hp]; rfl
      refine ⟨fun g => ?_, fun _ => ?_⟩
      · exact absurd (hcur.symm.trans g) (by decide)
      · rw [(lift_frame _ _).2.2.1]; exact hw.2 (Or.inr (Or.inl hp))
    · have ho : x.op.pause c e e2 = x.op := by
        unfold Op.pause
        split
        · rename_i g; exact absurd g h
        · rename_i g; exact absurd g hp
        · rfl
      show Worked (lift _ (x.op.pause c e e2)) (workNext x.op (x.op.pause c e e2) w d)
      rw [ho]
      exact lift_worked hw hb rfl (Grow.refl _)

theorem leave_op (o' : Op) (z : T) : (leave o' z).op = o' := by unfold leave; split <;> rfl

theorem step_worked {c : St → SCfg} {x y : T} {w : Nat} {v : Nat × Ev} (hw : Worked x w) (hb : Bound x)
    (h : step c x v = some y) : Worked y (workNext x.op y.op w v.1) := by
  obtain ⟨d, ev⟩ := v
  cases ev <;> simp only [step, Option.some.injEq, Option.map_eq_some_iff] at h
  case start e e2 k => subst h; exact start_worked hw hb e e2 k
  case startAgain e e2 => subst h; exact start_worked hw hb e e2 _
  case pause e e2 => subst h; exact pause_worked hw hb e e2
  case stop e e2 =>
    subst h
    refine worked_vacuous _ ?_
    rw [leave_op]
    exact stop_not_working _ _ _ _
  case switchOff e e2 =>
    subst h
    refine worked_vacuous _ (Or.inl ?_)
    rw [leave_op]
    unfold Op.switchOff
    split
    · assumption
    · rfl
  case finalize =>
    subst h
    refine worked_vacuous _ (Or.inl ?_)
    unfold finalize
    split
    · assumption
    · rename_i hi
      show (leave (Op.finalize _) _).op.cur = _
      rw [leave_op]
      unfold Op.finalize
      rw [if_neg hi]
  case evaluate e =>
    obtain ⟨o', h1, rfl⟩ := h
    cases h1
    exact lift_worked hw hb rfl (upd_grow (Grow.evaluate _ _ _))
  case toStep e k =>
    obtain ⟨o', h1, rfl⟩ := h
    cases h1
    exact lift_worked hw hb rfl (upd_grow (Grow.toStep _ _ _ _))
  case toNext e =>
    obtain ⟨o', h1, rfl⟩ := h
    cases h1
    exact lift_worked hw hb rfl (upd_grow (Grow.toNext _ _ _))
  case turnOff =>
    obtain ⟨o', h1, rfl⟩ := h
    cases h1
    exact lift_worked hw hb rfl (upd_grow (Grow.turnOff _))
  case offExtra k =>
    obtain ⟨o', h1, rfl⟩ := h
    cases h1
    exact lift_worked hw hb rfl (upd_grow (Grow.offExtra _ _ _))
  case onExtra e k =>
    obtain ⟨o', h1, rfl⟩ := h
    simp only [Op.step, Option.map_eq_some_iff] at h1
    obtain ⟨r, hr, rfl⟩ := h1
    exact lift_worked hw hb rfl (upd_grow (Grow.onExtra hr))
  case switchExtra a b =>
    obtain ⟨o', h1, rfl⟩ := h
    simp only [Op.step, Option.map_eq_some_iff] at h1
    obtain ⟨r, hr, rfl⟩ := h1
    exact lift_worked hw hb rfl (upd_grow (Grow.switchExtra hr))

theorem runFrom_worked {c : St → SCfg} (h : List (Nat × Ev)) : ∀ {x y : T} {w : Nat}, Worked x w → Bound x →
    runFrom c x h = some y → Worked y (worked c x.op w h) := by
  induction h with
  | nil => intro x y w hw _ e; cases e; exact hw
  | cons v h ih =>
    intro x y w hw hb e
    unfold runFrom at e
    cases h1 : step c x v with
    | none => rw [h1] at e; cases e
    | some z =>
      rw [h1] at e
      obtain ⟨d, ev⟩ := v
      unfold worked
      rw [step_op h1]
      exact ih (step_worked hw hb h1) (hb.step h1) e

end Ptusa.Resume
