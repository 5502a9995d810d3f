import Verif.StepDur.Spec
import Verif.Resume.Times

namespace Ptusa.StepDur

open Operation (St SCfg Env Call OpState Op Ev Basic Inv)
open Resume (T Paused NoChange lift stamp1 newCalls evalTime Bound)

/-- The state is active in step `m`, which is not a parallel step. -/
structure In (c : SCfg) (m : Nat) (r : OpState) : Prop where
  basic : Basic c r
  main : r.main = some m
  extra : m + 1 ∉ r.extra

/-- A change that leaves step `m` alone. -/
def Keep (m : Nat) (r r' : OpState) : Prop := ∃ l, r'.log = r.log ++ l ∧ ∀ x ∈ l, x ≠ .init (some m) ∧ x ≠ .fin (some m)

theorem Keep.refl (m : Nat) (r : OpState) : Keep m r r := ⟨[], by simp, by simp⟩

theorem Keep.of_log {m : Nat} {r r' : OpState} (h : r'.log = r.log) : Keep m r r' := ⟨[], by simp [h], by simp⟩

theorem Keep.trans {m : Nat} {a b d : OpState} (h1 : Keep m a b) (h2 : Keep m b d) : Keep m a d := by
  obtain ⟨l, hl, gl⟩ := h1
  obtain ⟨k, hk, gk⟩ := h2
  refine ⟨l ++ k, by rw [hk, hl, List.append_assoc], fun x hx => ?_⟩
  rcases List.mem_append.1 hx with hx | hx
  · exact gl x hx
  · exact gk x hx

theorem Keep.initStep {m i : Nat} (r : OpState) (h : i ≠ m) : Keep m r (r.initStep i) :=
  ⟨[.init (some i)], rfl, by simp [h]⟩

theorem Keep.evalStep (m : Nat) (r : OpState) (i : Nat) : Keep m r (r.evalStep i) := ⟨[.eval (some i)], rfl, by simp⟩

theorem Keep.finStep {m i : Nat} (r : OpState) (h : i ≠ m) : Keep m r (r.finStep i) :=
  ⟨[.fin (some i)], rfl, by simp [h]⟩

theorem In.offExtra {c : SCfg} {m : Nat} {r : OpState} (h : In c m r) (k : Int) :
    In c m (r.offExtra c k) ∧ Keep m r (r.offExtra c k) := by
  have hb := h.basic.offExtra k
  unfold OpState.offExtra at hb ⊢
  by_cases h1 : k < 0 ∨ (c.steps : Int) < k
  · rw [if_pos h1] at hb ⊢; exact ⟨h, Keep.refl _ _⟩
  · rw [if_neg h1] at hb ⊢
    by_cases h2 : k.toNat ∈ r.extra
    · rw [if_pos h2] at hb ⊢
      have h3 := (h.basic.extra _ h2).1
      have h4 : k.toNat ≠ m + 1 := fun e => h.extra (e ▸ h2)
      exact ⟨⟨hb, h.main, fun g => h.extra (List.mem_of_mem_erase g)⟩,
        (Keep.finStep r (by omega)).trans (Keep.of_log rfl)⟩
    · rw [if_neg h2] at hb ⊢; exact ⟨h, Keep.refl _ _⟩

theorem In.onExtraPos {c : SCfg} {m : Nat} {r : OpState} (h : In c m r) (e : Env) (k : Nat) (hk : 1 ≤ k) :
    In c m (r.onExtraPos c e k).1 ∧ Keep m r (r.onExtraPos c e k).1 := by
  have hb := h.basic.onExtraPos e k hk
  unfold OpState.onExtraPos at hb ⊢
  by_cases h1 : c.steps < k
  · rw [if_pos h1] at hb ⊢; exact ⟨h, Keep.refl _ _⟩
  · rw [if_neg h1] at hb ⊢
    by_cases h2 : r.main = some (k - 1)
    · rw [if_pos h2] at hb ⊢; exact ⟨h, Keep.refl _ _⟩
    · rw [if_neg h2] at hb ⊢
      by_cases h3 : k ∈ r.extra
      · rw [if_pos h3] at hb ⊢; exact ⟨h, Keep.refl _ _⟩
      · rw [if_neg h3] at hb ⊢
        have h4 : k - 1 ≠ m := by
          intro g; apply h2; rw [h.main, g]
        have h5 : m + 1 ∉ r.extra ++ [k] := by
          simp only [List.mem_append, List.mem_singleton, not_or]
          exact ⟨h.extra, by omega⟩
        have k1 : Keep m r { r with extra := r.extra ++ [k] } := Keep.of_log rfl
        dsimp only at hb ⊢
        by_cases h6 : e.checkOk (k - 1) = true
        · rw [if_pos h6] at hb ⊢
          exact ⟨⟨hb, h.main, h5⟩, (k1.trans (Keep.initStep _ h4)).trans (Keep.evalStep _ _ _)⟩
        · rw [if_neg h6] at hb ⊢
          exact ⟨⟨hb, h.main, h5⟩, k1⟩

theorem In.onExtra {c : SCfg} {m : Nat} {r : OpState} (h : In c m r) {e : Env} {k : Int} {x : OpState × Nat}
    (hx : r.onExtra c e k = some x) : In c m x.1 ∧ Keep m r x.1 := by
  unfold OpState.onExtra at hx
  by_cases h1 : k < 0
  · rw [if_pos h1] at hx; cases hx; exact ⟨h, Keep.refl _ _⟩
  · rw [if_neg h1] at hx
    by_cases h2 : k = 0
    · rw [if_pos h2, if_neg (by rw [h.main]; simp)] at hx; cases hx
    · rw [if_neg h2] at hx; cases hx
      exact h.onExtraPos e _ (by omega)

theorem In.switchExtra {c : SCfg} {m : Nat} {r : OpState} (h : In c m r) {off on : Int} {x : OpState × Nat}
    (hx : r.switchExtra c off on = some x) : In c m x.1 ∧ Keep m r x.1 := by
  have hb := h.basic.switchExtra hx
  unfold OpState.switchExtra at hx
  by_cases h1 : on < 0 ∨ (c.steps : Int) < on
  · rw [if_pos h1] at hx; cases hx; exact ⟨h, Keep.refl _ _⟩
  · rw [if_neg h1] at hx
    by_cases h2 : (on = 0 ∧ r.main = none) ∨ (0 < on ∧ r.main = some (on.toNat - 1))
    · rw [if_pos h2] at hx; cases hx; exact ⟨h, Keep.refl _ _⟩
    · rw [if_neg h2] at hx
      by_cases h3 : 0 ≤ off ∧ off.toNat ∈ r.extra
      · rw [if_pos h3] at hx
        by_cases h4 : on = 0
        · rw [if_pos h4] at hx; cases hx
        · rw [if_neg h4] at hx; cases hx
          have h5 := (h.basic.extra _ h3.2).1
          have h6 : off.toNat ≠ m + 1 := fun e => h.extra (e ▸ h3.2)
          have h7 : on.toNat - 1 ≠ m := by
            intro g; apply h2; right; exact ⟨by omega, by rw [h.main, g]⟩
          refine ⟨⟨hb, h.main, fun g => ?_⟩, (((Keep.finStep r (by omega)).trans (Keep.initStep _ h7)).trans
            (Keep.evalStep _ _ _)).trans (Keep.of_log rfl)⟩
          rcases Operation.mem_of_mem_replace g with g | g
          · omega
          · exact h.extra g
      · rw [if_neg h3] at hx; cases hx; exact ⟨h, Keep.refl _ _⟩

theorem In.evalStep {c : SCfg} {m : Nat} {r : OpState} (h : In c m r) (i : Nat) :
    In c m (r.evalStep i) ∧ Keep m r (r.evalStep i) :=
  ⟨⟨h.basic.evalStep i, h.main, h.extra⟩, Keep.evalStep _ _ _⟩

theorem In.extraBody {c : SCfg} {m : Nat} {r : OpState} (h : In c m r) (e : Env) (k : Nat) :
    In c m (r.extraBody c e k) ∧ Keep m r (r.extraBody c e k) := by
  unfold OpState.extraBody
  split
  · dsimp only
    obtain ⟨a, b⟩ := h.evalStep (k - 1)
    split
    · obtain ⟨a2, b2⟩ := a.offExtra (k : Int)
      exact ⟨a2, b.trans b2⟩
    · exact ⟨a, b⟩
  · exact ⟨h, Keep.refl _ _⟩

theorem In.extraLoop {c : SCfg} {m : Nat} (e : Env) : ∀ (fuel idx : Nat) {r : OpState}, In c m r →
    In c m (r.extraLoop c e fuel idx) ∧ Keep m r (r.extraLoop c e fuel idx) := by
  intro fuel
  induction fuel with
  | zero => intro idx r h; exact ⟨h, Keep.refl _ _⟩
  | succ f ih =>
    intro idx r h
    unfold OpState.extraLoop
    split
    · exact ⟨h, Keep.refl _ _⟩
    · rename_i k _
      obtain ⟨a, b⟩ := h.extraBody e k
      obtain ⟨a2, b2⟩ := ih (idx + 1) a
      exact ⟨a2, b.trans b2⟩

theorem In.enableLoop {c : SCfg} {m : Nat} (e : Env) {r : OpState} (h : In c m r) :
    In c m (r.enableLoop c e) ∧ Keep m r (r.enableLoop c e) := by
  unfold OpState.enableLoop
  generalize List.range c.steps = l
  induction l generalizing r with
  | nil => exact ⟨h, Keep.refl _ _⟩
  | cons a l ih =>
    rw [List.foldl_cons]
    by_cases h1 : a + 1 ∈ r.extra
    · rw [if_pos h1]; exact ih h
    · rw [if_neg h1]
      by_cases h2 : e.onSig a = true
      · rw [if_pos h2]
        obtain ⟨p, q⟩ := h.onExtraPos e (a + 1) (by omega)
        obtain ⟨p2, q2⟩ := ih p
        exact ⟨p2, q.trans q2⟩
      · rw [if_neg h2]; exact ih h

/-- The part of a pass before the check of the duration. -/
theorem In.before {c : SCfg} {m : Nat} (e : Env) {r : OpState} (h : In c m r) :
    ∃ r2, r.evaluate c e = r2.evalMain c e ∧ In c m r2 ∧ Keep m r r2 := by
  have h0 : In c m { r with log := r.log ++ [.eval none] } := ⟨h.basic.evalMode, h.main, h.extra⟩
  have k0 : Keep m r { r with log := r.log ++ [.eval none] } := ⟨[.eval none], rfl, by simp⟩
  obtain ⟨a, b⟩ := In.extraLoop e r.extra.length 0 h0
  obtain ⟨a2, b2⟩ := a.enableLoop e
  exact ⟨_, rfl, a2, (k0.trans b).trans b2⟩

theorem In.evaluate {c : SCfg} {m : Nat} (e : Env) {r : OpState} (h : In c m r) (h1 : e.zeroDur m = false)
    (h2 : e.elapsed m = false) (h3 : e.jump m = none) :
    In c m (r.evaluate c e).1 ∧ Keep m r (r.evaluate c e).1 := by
  obtain ⟨r2, e2, i2, k2⟩ := h.before e
  rw [e2]
  unfold OpState.evalMain
  simp only [i2.main, h1, h2, h3, Bool.or_self, Bool.false_eq_true, if_false]
  obtain ⟨a, b⟩ := i2.evalStep m
  exact ⟨a, k2.trans b⟩

/-! ### Times -/

theorem stamp_dx (l : List Call) (i : Nat) (h : Call.fin (some i) ∉ l) : ∀ x : T, (l.foldl stamp1 x).dx i = x.dx i := by
  induction l with
  | nil => intro x; rfl
  | cons a l ih =>
    intro x
    rw [List.foldl_cons, ih (fun g => h (List.mem_cons_of_mem _ g))]
    unfold stamp1
    split <;> try rfl
    rename_i j
    show (if i = j then 0 else x.dx i) = x.dx i
    rw [if_neg]
    rintro rfl
    exact h List.mem_cons_self

theorem lift_keep {m : Nat} (x : T) (o' : Op) (h : Keep m (x.op.st .run) (o'.st .run)) :
    evalTime (lift x o') m = evalTime x m := by
  obtain ⟨l, hl, gl⟩ := h
  have h1 : (lift x o').start m = x.start m := by
    show ((newCalls x.op o').foldl stamp1 x).start m = _
    rw [Resume.newCalls_of hl, Resume.stamp_start, if_neg]
    intro g
    exact (gl _ g).1 rfl
  have h2 : (lift x o').dx m = x.dx m := by
    show ((newCalls x.op o').foldl stamp1 x).dx m = _
    rw [Resume.newCalls_of hl, stamp_dx]
    intro g
    exact (gl _ g).2 rfl
  unfold evalTime
  rw [h1, h2, (Resume.lift_frame x o').1]

/-- The step `m` has worked for `w`, or did so when the operation was paused. -/
structure At (c : St → SCfg) (m w : Nat) (x : T) : Prop where
  inv : Inv c x.op
  bound : Bound x
  lt : m < (c .run).steps
  here : x.op.cur = .run ∨ Paused x.op
  run : x.op.cur = .run → In (c .run) m (x.op.st .run) ∧ evalTime x m = w
  paused : Paused x.op → x.dxStep = w ∧ x.op.runStep = (m : Int) + 1 ∧ m + 1 ∉ (x.op.st .run).saved

theorem not_both {o : Op} (h : o.cur = .run) (g : Paused o) : False := by
  rcases g with g | g | g <;> rw [h] at g <;> cases g

/-- A call that stays in RUN. -/
theorem At.stay {c : St → SCfg} {m w d : Nat} {x : T} (h : At c m w x) (hr : x.op.cur = .run) {r : OpState}
    {ev : Ev} (hs : Resume.step c x (d, ev) = some (lift { x with now := x.now + d } (x.op.upd x.op.cur r)))
    (hi : In (c .run) m r) (hk : Keep m (x.op.st .run) r) :
    At c m (work x.op w d) (lift { x with now := x.now + d } (x.op.upd x.op.cur r)) := by
  have hst : (x.op.upd x.op.cur r).st .run = r := by simp [Op.upd, hr]
  have hop := Resume.step_op hs
  refine ⟨h.inv.step hop, h.bound.step hs, h.lt, Or.inl hr, fun _ => ⟨?_, ?_⟩, fun g => ?_⟩
  · show In _ m ((x.op.upd x.op.cur r).st .run)
    rw [hst]; exact hi
  · rw [lift_keep _ _ (by rw [hst]; exact hk)]
    have h1 := (h.run hr).2
    have h2 := h.bound.2 m
    unfold work
    rw [if_pos hr]
    unfold evalTime at h1 ⊢
    show x.now + d - x.start m + x.dx m = w + d
    omega
  · exact (not_both (o := x.op) hr g).elim

/-- A call that stays in the pause. -/
theorem At.pausedStay {c : St → SCfg} {m w d : Nat} {x y : T} (h : At c m w x) (hp : Paused x.op) {ev : Ev}
    (hs : Resume.step c x (d, ev) = some y) (hy : Paused y.op) : At c m (work x.op w d) y := by
  obtain ⟨a, _⟩ := Resume.paused_times hp hs hy
  have hop := Resume.step_op hs
  obtain ⟨f1, f2⟩ := Resume.paused_frame hp hop hy
  obtain ⟨p1, p2, p3⟩ := h.paused hp
  have hw : work x.op w d = w := by
    unfold work; rw [if_neg (fun g => not_both g hp)]
  rw [hw]
  exact ⟨h.inv.step hop, h.bound.step hs, h.lt, Or.inr hy, fun g => (not_both g hy).elim,
    fun _ => ⟨a.trans p1, f2.trans p2, by rw [f1]; exact p3⟩⟩

/-- Starting again. -/
theorem At.resume {c : St → SCfg} {m w d : Nat} {x y : T} (h : At c m w x) (hp : Paused x.op) {e e2 : Env} {k : Int}
    {ev : Ev} (hs : Resume.step c x (d, ev) = some y) (hy : y = Resume.start c e e2 k { x with now := x.now + d })
    (hk : k ≤ 0 ∨ k = (m : Int) + 1) (hz : e.zeroDur m = false) (h2 : NoChange e2) (hr : y.op.cur = .run) :
    At c m (work x.op w d) y := by
  obtain ⟨p1, p2, p3⟩ := h.paused hp
  have hop := Resume.step_op hs
  have hw : work x.op w d = w := by
    unfold work; rw [if_neg (fun g => not_both g hp)]
  rw [hw]
  have hb := h.inv.basic .run
  have fin : ∀ ox : Op, (ox.st .run) = x.op.st .run → ox.runStep = x.op.runStep →
      y = Resume.toRun c e e2 k ox { x with now := x.now + d } → At c m w y := by
    intro ox g1 g2 g3
    obtain ⟨a1, a2, _, _, a5, _⟩ := Resume.toRun_resume (c := c) (e := e) (e2 := e2) (k := k) (o := ox)
      (z := { x with now := x.now + d }) (m := m) (by rw [g1]) h.lt (g2.trans p2) hk (by rw [g1]; exact hb.len)
      (by rw [g1]; exact hb.saved) hz h2
    rw [← g3] at a1 a2 a5
    have hI := h.inv.step hop
    refine ⟨hI, h.bound.step hs, h.lt, Or.inl hr, fun _ => ⟨⟨hI.basic .run, a1, ?_⟩, ?_⟩,
      fun g => (not_both hr g).elim⟩
    · rw [a2, g1]; exact p3
    · unfold Resume.stepTime at a5
      rw [a1] at a5
      exact a5.trans p1
  have hcur : y.op.cur = _ := (congrArg Op.cur (by rw [hy, Resume.start_op])).trans (Operation.start_cur c e e2 k x.op)
  rcases hp with g | g | g
  · rw [hr, g] at hcur; cases hcur
  · by_cases hu : (c .unpausing).empty = true
    · refine fin (x.op.fin .pause) (by simp [Op.fin, Op.upd]) rfl ?_
      rw [hy]
      unfold Resume.start
      simp only [g]
      rw [if_pos hu]
    · rw [hr, g] at hcur
      simp [Operation.diagram, hu] at hcur
  · refine fin x.op rfl rfl ?_
    rw [hy]
    unfold Resume.start
    simp only [g]

theorem At.pauseNow {c : St → SCfg} {m w d : Nat} {x y : T} (h : At c m w x) (hr : x.op.cur = .run) {e e2 : Env}
    (hs : Resume.step c x (d, .pause e e2) = some y) : At c m (work x.op w d) y := by
  have hop := Resume.step_op hs
  have hyo : y.op = x.op.pause c e e2 := (Option.some.inj hop).symm
  obtain ⟨q1, q2⟩ := Resume.pause_run (c := c) (e := e) (e2 := e2) hr
  obtain ⟨i, t⟩ := h.run hr
  have hpy : Paused y.op := by
    unfold Paused
    rw [hyo, Operation.pause_cur, hr]
    simp only [Operation.diagram, Option.getD_some]
    split <;> simp
  have hw : work x.op w d = w + d := by unfold work; rw [if_pos hr]
  rw [hw]
  refine ⟨h.inv.step hop, h.bound.step hs, h.lt, Or.inr hpy, fun g => (not_both g hpy).elim, fun _ => ⟨?_, ?_, ?_⟩⟩
  · simp only [Resume.step, Option.some.injEq] at hs
    subst hs
    unfold Resume.pause
    rw [if_pos hr, (Resume.lift_frame _ _).2.1]
    show (Resume.keep { x with now := x.now + d }).dxStep = _
    unfold Resume.keep
    simp only [i.main]
    have := h.bound.2 m
    unfold evalTime at t ⊢
    show x.now + d - x.start m + x.dx m = w + d
    omega
  · rw [hyo, q2]; simp [OpState.activeStep, i.main]
  · rw [hyo, q1, Operation.finalize_saved]; exact i.extra

theorem At.startRun {c : St → SCfg} {m w d : Nat} {x y : T} (h : At c m w x) (hr : x.op.cur = .run) {e e2 : Env} {k : Int}
    (hb : Bound y) (hy : y = Resume.start c e e2 k { x with now := x.now + d }) : At c m (work x.op w d) y := by
  have ho : x.op.start c e e2 k = x.op := by unfold Op.start; rw [hr]
  have : y = { x with now := x.now + d } := by
    rw [hy]; unfold Resume.start; simp only [hr]; rw [ho]; exact Resume.lift_same _ _ rfl
  subst this
  refine ⟨h.inv, hb, h.lt, Or.inl hr, fun _ => ⟨(h.run hr).1, ?_⟩, fun g => (not_both (o := x.op) hr g).elim⟩
  have h1 := (h.run hr).2
  have h2 := h.bound.2 m
  unfold work
  rw [if_pos hr]
  unfold evalTime at h1 ⊢
  show x.now + d - x.start m + x.dx m = w + d
  omega

theorem paused_of_cur {o o' : Op} (h : o'.cur = o.cur) (hp : Paused o) : Paused o' := by
  unfold Paused at hp ⊢; rw [h]; exact hp

theorem At.step {c : St → SCfg} {m w d : Nat} {lim : Option Nat} {x y : T} {ev : Ev} (h : At c m w x)
    (hl : lim ≠ some 0) (hc : Calm m x.op ev)
    (ht : ∀ e, ev = .evaluate e → x.op.cur = .run → Timed lim { x with now := x.now + d } m e ∧ ∀ t, lim = some t → w + d ≤ t)
    (hs : Resume.step c x (d, ev) = some y) : At c m (work x.op w d) y := by
  have hop := Resume.step_op hs
  have hcur := Operation.step_cur hop
  rcases h.here with hr | hp
  · obtain ⟨i, t⟩ := h.run hr
    cases ev
    case evaluate e =>
      obtain ⟨t1, t2⟩ := ht e rfl hr
      have hev : evalTime { x with now := x.now + d } m = w + d := by
        have h2 := h.bound.2 m
        unfold evalTime at t ⊢
        show x.now + d - x.start m + x.dx m = w + d
        omega
      have hz : e.zeroDur m = false ∧ e.elapsed m = false := by
        unfold Timed clock at t1
        cases hlim : lim with
        | none => rw [hlim] at t1; simpa using t1
        | some q =>
          rw [hlim] at t1
          have h1 := t2 q hlim
          have h0 : q ≠ 0 := fun g => hl (by rw [hlim, g])
          simp only [Prod.mk.injEq] at t1
          rw [t1.1, t1.2, hev]
          exact ⟨by simp [h0], by simpa using h1⟩
      have he := In.evaluate e i hz.1 hz.2 (hc hr)
      simp only [Resume.step, Op.step, Option.map_some, Option.some.injEq] at hs
      have hy : lift { x with now := x.now + d } (x.op.upd x.op.cur ((x.op.st x.op.cur).evaluate (c x.op.cur) e).1) = y := hs
      rw [← hy]
      refine At.stay h hr (ev := .evaluate e) rfl ?_ ?_
      · rw [hr]; exact he.1
      · rw [hr]; exact he.2
    case onExtra e k =>
      simp only [Resume.step, Op.step, Option.map_eq_some_iff] at hs
      obtain ⟨o', ⟨r, h1, rfl⟩, rfl⟩ := hs
      have h1' := h1
      rw [hr] at h1'
      obtain ⟨a, b⟩ := i.onExtra h1'
      exact At.stay h hr (ev := .onExtra e k) (by simp [Resume.step, Op.step, h1]) a b
    case switchExtra p q =>
      simp only [Resume.step, Op.step, Option.map_eq_some_iff] at hs
      obtain ⟨o', ⟨r, h1, rfl⟩, rfl⟩ := hs
      have h1' := h1
      rw [hr] at h1'
      obtain ⟨a, b⟩ := i.switchExtra h1'
      exact At.stay h hr (ev := .switchExtra p q) (by simp [Resume.step, Op.step, h1]) a b
    case offExtra k =>
      simp only [Resume.step, Op.step, Option.map_some, Option.some.injEq] at hs
      rw [← hs]
      refine At.stay h hr (ev := .offExtra k) rfl ?_ ?_
      · rw [hr]; exact (i.offExtra k).1
      · rw [hr]; exact (i.offExtra k).2
    case pause e e2 => exact h.pauseNow hr hs
    case start e e2 k =>
      exact h.startRun hr (h.bound.step hs) (Option.some.inj hs).symm
    case startAgain e e2 =>
      exact h.startRun hr (h.bound.step hs) (Option.some.inj hs).symm
    case toStep e k => exact (not_both hr hc).elim
    case toNext e => exact (not_both hr hc).elim
    case turnOff => exact (not_both hr hc).elim
    case stop e e2 => exact hc.elim
    case switchOff e e2 => exact hc.elim
    case finalize => exact hc.elim
  · obtain ⟨p1, p2, p3⟩ := h.paused hp
    have starts : ∀ e e2 k, Operation.follow (fun s => !(c s).empty) x.op.cur ev =
        (Operation.diagram (fun s => !(c s).empty) .start x.op.cur).getD x.op.cur →
        y = Resume.start c e e2 k { x with now := x.now + d } → (k ≤ 0 ∨ k = (m : Int) + 1) → e.zeroDur m = false →
        NoChange e2 → At c m (work x.op w d) y := by
      intro e e2 k hf hy hk hz h2
      rw [hf] at hcur
      have : y.op.cur = .run ∨ Paused y.op := by
        unfold Paused
        rw [hcur]
        rcases hp with g | g | g <;> rw [g] <;> simp [Operation.diagram]
        split <;> simp
      rcases this with g | g
      · exact h.resume hp hs hy hk hz h2 g
      · exact h.pausedStay hp hs g
    cases ev
    case start e e2 k => exact starts e e2 k rfl (Option.some.inj hs).symm hc.1 hc.2.1 hc.2.2
    case startAgain e e2 =>
      exact starts e e2 x.op.runStep rfl (Option.some.inj hs).symm (Or.inr p2) hc.1 hc.2
    case pause e e2 =>
      refine h.pausedStay hp hs ?_
      unfold Paused
      rw [hcur]
      rcases hp with g | g | g <;> rw [g] <;> simp [Operation.follow, Ev.cmd?, Operation.diagram]
    case stop e e2 => exact hc.elim
    case switchOff e e2 => exact hc.elim
    case finalize => exact hc.elim
    all_goals exact h.pausedStay hp hs (paused_of_cur hcur hp)

theorem At.run' {c : St → SCfg} {m : Nat} {lim : Option Nat} (hl : lim ≠ some 0) (g : List (Nat × Ev)) :
    ∀ {w : Nat} {x y : T}, At c m w x → Within c lim m x w g → Resume.runFrom c x g = some y →
      At c m (worked c x.op w g) y := by
  induction g with
  | nil => intro w x y h _ e; cases e; exact h
  | cons v g ih =>
    intro w x y h hw e
    obtain ⟨d, ev⟩ := v
    obtain ⟨h1, h2, h3⟩ := hw
    unfold Resume.runFrom at e
    cases hz : Resume.step c x (d, ev) with
    | none => rw [hz] at e; cases e
    | some z =>
      rw [hz] at e
      unfold worked
      rw [Resume.step_op hz]
      exact ih (h.step hl h1 h2 hz) (h3 z hz) e

end Ptusa.StepDur
