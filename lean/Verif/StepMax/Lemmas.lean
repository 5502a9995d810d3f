import Verif.StepMax.Model
import Verif.StepMax.Spec
import Verif.StepDur.Begin

namespace Ptusa.StepMax

open Operation (St SCfg Env Call OpState Op Ev Basic Inv)
open Resume (T Paused lift stamp1 newCalls Bound)
open StepDur (In Keep)

/-- A change in which a step that becomes the active one, and is not skipped, is begun. -/
def Ent (e : Env) (r r' : OpState) : Prop :=
  ∃ l, r'.log = r.log ++ l ∧ ∀ m, r'.main = some m → e.zeroDur m = false → r.main = some m ∨ .init (some m) ∈ l

theorem Ent.refl (e : Env) (r : OpState) : Ent e r r := ⟨[], by simp, fun _ h _ => Or.inl h⟩

theorem Ent.same {e : Env} {r r' : OpState} (l : List Call) (h1 : r'.log = r.log ++ l) (h2 : r'.main = r.main) : Ent e r r' :=
  ⟨l, h1, fun _ h _ => Or.inl (h2 ▸ h)⟩

theorem Ent.trans {e : Env} {a b d : OpState} (h1 : Ent e a b) (h2 : Ent e b d) : Ent e a d := by
  obtain ⟨l, hl, gl⟩ := h1
  obtain ⟨k, hk, gk⟩ := h2
  refine ⟨l ++ k, by rw [hk, hl, List.append_assoc], fun m h hz => ?_⟩
  rcases gk m h hz with g | g
  · rcases gl m g hz with g | g
    · exact Or.inl g
    · exact Or.inr (List.mem_append_left _ g)
  · exact Or.inr (List.mem_append_right _ g)

theorem Ent.initStep (e : Env) (r : OpState) (i : Nat) : Ent e r (r.initStep i) := Ent.same [.init (some i)] rfl rfl
theorem Ent.evalStep (e : Env) (r : OpState) (i : Nat) : Ent e r (r.evalStep i) := Ent.same [.eval (some i)] rfl rfl

theorem Ent.toStep (c : SCfg) (e : Env) (k : Int) (r : OpState) : Ent e r (r.toStep c e k) := by
  unfold OpState.toStep
  by_cases h : k ≤ 0 ∨ (c.steps : Int) < k
  · rw [if_pos h]; exact Ent.refl _ _
  · rw [if_neg h]
    have hf : ∃ l, r.finMain.log = r.log ++ l := by
      unfold OpState.finMain
      split
      · exact ⟨_, rfl⟩
      · exact ⟨[], by simp⟩
    obtain ⟨l, hl⟩ := hf
    dsimp only
    by_cases hz : e.zeroDur (k.toNat - 1) = true
    · rw [if_pos hz]
      refine ⟨l, hl, fun m g g2 => ?_⟩
      have : k.toNat - 1 = m := Option.some.inj g
      rw [this, g2] at hz; cases hz
    · rw [if_neg hz]
      refine ⟨l ++ [.init (some (k.toNat - 1)), .eval (some (k.toNat - 1))], ?_, fun m g _ => Or.inr ?_⟩
      · simp [OpState.initStep, OpState.evalStep, hl]
      · have : k.toNat - 1 = m := Option.some.inj g
        rw [this]; simp

theorem Ent.offExtra (c : SCfg) (e : Env) (k : Int) (r : OpState) : Ent e r (r.offExtra c k) := by
  unfold OpState.offExtra
  split
  · exact Ent.refl _ _
  · split
    · exact Ent.same [.fin (some (k.toNat - 1))] rfl rfl
    · exact Ent.refl _ _

theorem Ent.onExtraPos (c : SCfg) (e e' : Env) (k : Nat) (r : OpState) : Ent e r (r.onExtraPos c e' k).1 := by
  unfold OpState.onExtraPos
  split
  · exact Ent.refl _ _
  · split
    · exact Ent.refl _ _
    · split
      · exact Ent.refl _ _
      · have h1 : Ent e r { r with extra := r.extra ++ [k] } := Ent.same [] (by simp) rfl
        dsimp only
        split
        · exact (h1.trans (Ent.initStep _ _ _)).trans (Ent.evalStep _ _ _)
        · exact h1

theorem Ent.onExtra {c : SCfg} {e e' : Env} {k : Int} {r : OpState} {x : OpState × Nat}
    (h : r.onExtra c e' k = some x) : Ent e r x.1 := by
  unfold OpState.onExtra at h
  split at h
  · cases h; exact Ent.refl _ _
  · split at h
    · split at h
      · cases h; exact Ent.refl _ _
      · cases h
    · cases h; exact Ent.onExtraPos _ _ _ _ _

theorem Ent.switchExtra {c : SCfg} {e : Env} {off on : Int} {r : OpState} {x : OpState × Nat}
    (h : r.switchExtra c off on = some x) : Ent e r x.1 := by
  unfold OpState.switchExtra at h
  split at h
  · cases h; exact Ent.refl _ _
  · split at h
    · cases h; exact Ent.refl _ _
    · split at h
      · split at h
        · cases h
        · cases h
          exact Ent.same [.fin (some (off.toNat - 1)), .init (some (on.toNat - 1)), .eval (some (on.toNat - 1))]
            (by simp [OpState.finStep, OpState.initStep, OpState.evalStep]) rfl
      · cases h; exact Ent.refl _ _

theorem Ent.extraLoop (c : SCfg) (e : Env) : ∀ (fuel idx : Nat) (r : OpState), Ent e r (r.extraLoop c e fuel idx) := by
  intro fuel
  induction fuel with
  | zero => intro idx r; exact Ent.refl _ _
  | succ f ih =>
    intro idx r
    unfold OpState.extraLoop
    split
    · exact Ent.refl _ _
    · refine Ent.trans ?_ (ih _ _)
      unfold OpState.extraBody
      split
      · dsimp only
        split
        · exact (Ent.evalStep _ _ _).trans (Ent.offExtra _ _ _ _)
        · exact Ent.evalStep _ _ _
      · exact Ent.refl _ _

theorem Ent.enableLoop (c : SCfg) (e : Env) (r : OpState) : Ent e r (r.enableLoop c e) := by
  unfold OpState.enableLoop
  generalize List.range c.steps = l
  induction l generalizing r with
  | nil => exact Ent.refl _ _
  | cons a l ih =>
    refine Ent.trans ?_ (ih _)
    dsimp only
    split
    · exact Ent.refl _ _
    · split
      · exact Ent.onExtraPos _ _ _ _ _
      · exact Ent.refl _ _

theorem Ent.evalMain (c : SCfg) (e : Env) (r : OpState) : Ent e r (r.evalMain c e).1 := by
  unfold OpState.evalMain
  cases hm : r.main with
  | none => exact Ent.refl _ _
  | some m =>
    dsimp only
    by_cases h1 : (e.zeroDur m || e.elapsed m) = true
    · rw [if_pos h1]
      by_cases h2 : r.nextN = -1
      · rw [if_pos h2]; exact Ent.refl _ _
      · rw [if_neg h2]; exact Ent.toStep _ _ _ _
    · rw [if_neg h1]
      cases e.jump m with
      | none =>
        dsimp only
        rw [hm]
        exact Ent.evalStep _ _ _
      | some k =>
        dsimp only
        split
        · exact (Ent.toStep _ _ _ _).trans (Ent.evalStep _ _ _)
        · exact Ent.toStep _ _ _ _

theorem Ent.evaluate (c : SCfg) (e : Env) (r : OpState) : Ent e r (r.evaluate c e).1 := by
  have h0 : Ent e r { r with log := r.log ++ [.eval none] } := Ent.same [.eval none] rfl rfl
  exact ((h0.trans (Ent.extraLoop c e _ _ _)).trans (Ent.enableLoop _ _ _)).trans (Ent.evalMain _ _ _)

theorem Ent.toNext (c : SCfg) (e : Env) (r : OpState) : Ent e r (r.toNext c e) := by
  unfold OpState.toNext
  split
  · exact Ent.refl _ _
  · split <;> exact Ent.toStep _ _ _ _

theorem Ent.turnOff (e : Env) (r : OpState) : Ent e r r.turnOff := by
  have hf : ∃ l, r.finMain.log = r.log ++ l := by
    unfold OpState.finMain
    split
    · exact ⟨_, rfl⟩
    · exact ⟨[], by simp⟩
  obtain ⟨l, hl⟩ := hf
  exact ⟨l, hl, fun m h => by cases h⟩

/-- `init` begins the step it enters. -/
theorem init_begins (c : SCfg) (e : Env) (k : Int) (r : OpState) : ∃ l, (r.init c e k).log = r.log ++ l ∧
    ∀ m, (r.init c e k).main = some m → e.zeroDur m = false → .init (some m) ∈ l := by
  unfold OpState.init
  dsimp only
  by_cases h : c.steps = 0
  · rw [if_pos h]; exact ⟨[.init none], rfl, fun m g => by cases g⟩
  · rw [if_neg h]
    have h1 := Ent.toStep c e k { r with mode := true, log := r.log ++ [.init none], main := none }
    generalize OpState.toStep c e k { r with mode := true, log := r.log ++ [.init none], main := none } = r2 at h1
    have h2 : ∀ (l : List Nat) (r : OpState), Ent e r (l.foldl (fun r k => r.initStep (k - 1)) r) := by
      intro l
      induction l with
      | nil => intro r; exact Ent.refl _ _
      | cons a l ih => intro r; exact (Ent.initStep e r _).trans (ih _)
    obtain ⟨l, hl, gl⟩ := h1.trans (h2 r2.extra r2)
    refine ⟨.init none :: l, by rw [hl]; simp, fun m g hz => ?_⟩
    rcases gl m g hz with q | q
    · cases q
    · exact List.mem_cons_of_mem _ q

/-! ### Times -/

theorem lift_start (x : T) (o' : Op) {l : List Call} (hl : (o'.st .run).log = (x.op.st .run).log ++ l) (i : Nat) :
    (lift x o').start i = if .init (some i) ∈ l then x.now else x.start i := by
  show ((newCalls x.op o').foldl stamp1 x).start i = _
  rw [Resume.newCalls_of hl, Resume.stamp_start]

theorem lift_now (x : T) (o' : Op) (i : Nat) (h : x.start i = x.now) : (lift x o').start i = x.now := by
  show ((newCalls x.op o').foldl stamp1 x).start i = _
  rw [Resume.stamp_start, h]
  split <;> rfl

theorem lift_keep_start {m : Nat} (x : T) (o' : Op) (h : Keep m (x.op.st .run) (o'.st .run)) :
    (lift x o').start m = x.start m := by
  obtain ⟨l, hl, gl⟩ := h
  rw [lift_start x o' hl, if_neg]
  intro g
  exact (gl _ g).1 rfl

/-- Going on in RUN begins the step. -/
theorem toRun_start {c : St → SCfg} {e e2 : Env} {k : Int} {o : Op} {x : T} {m : Nat} (ho : o.st .run = x.op.st .run)
    (hz : e.zeroDur m = false) (hz2 : e2.zeroDur m = false)
    (hm : ((Resume.toRun c e e2 k o x).op.st .run).main = some m) : (Resume.toRun c e e2 k o x).start m = x.now := by
  unfold Resume.toRun at hm ⊢
  dsimp only at hm ⊢
  generalize hs : (if 0 < k then k else if 0 < o.runStep then o.runStep else 1) = s at hm ⊢
  have e1 : ((o.upd .run (o.st .run).load).enter c e .run s).st .run = (x.op.st .run).load.init (c .run) e s := by
    simp [Op.enter, Op.upd, ho]
  obtain ⟨l, hl, gl⟩ := init_begins (c .run) e s (x.op.st .run).load
  have e1c : ((o.upd .run (o.st .run).load).enter c e .run s).cur = .run := rfl
  generalize ho2 : (o.upd .run (o.st .run).load).enter c e .run s = o2 at hm e1 e1c ⊢
  have hl1 : (o2.st .run).log = (x.op.st .run).log ++ l := by rw [e1, hl]; rfl
  have hx2 : ∀ x1 : T, (if 0 < k then (if k = o.runStep then Resume.addDx x1 else x1)
      else if 0 < o.runStep then Resume.addDx x1 else x1).start = x1.start ∧
      (if 0 < k then (if k = o.runStep then Resume.addDx x1 else x1)
      else if 0 < o.runStep then Resume.addDx x1 else x1).now = x1.now ∧
      (if 0 < k then (if k = o.runStep then Resume.addDx x1 else x1)
      else if 0 < o.runStep then Resume.addDx x1 else x1).op = x1.op := by
    intro x1
    have ha : (Resume.addDx x1).start = x1.start ∧ (Resume.addDx x1).now = x1.now ∧ (Resume.addDx x1).op = x1.op := by
      unfold Resume.addDx
      split <;> exact ⟨rfl, rfl, rfl⟩
    split
    · split
      · exact ha
      · exact ⟨rfl, rfl, rfl⟩
    · split
      · exact ha
      · exact ⟨rfl, rfl, rfl⟩
  obtain ⟨s1, s2, s3⟩ := hx2 (lift x o2)
  generalize (if 0 < k then (if k = o.runStep then Resume.addDx (lift x o2) else lift x o2)
      else if 0 < o.runStep then Resume.addDx (lift x o2) else lift x o2) = x2 at hm s1 s2 s3 ⊢
  have n1 : (lift x o2).now = x.now := (Resume.lift_frame x o2).1
  have hst : (o2.evalCur c e2).st .run = ((o2.st .run).evaluate (c .run) e2).1 := by
    simp [Op.evalCur, Op.upd, e1c]
  obtain ⟨l2, hl2, gl2⟩ := Ent.evaluate (c .run) e2 (o2.st .run)
  have hm' : ((o2.st .run).evaluate (c .run) e2).1.main = some m := by rw [← hst]; exact hm
  have hop : x2.op = o2 := s3
  rw [lift_start x2 _ (l := l2) (by rw [hst, hl2, hop])]
  rcases gl2 m hm' hz2 with g | g
  · have hi : Call.init (some m) ∈ l := gl m (by rw [← e1]; exact g) hz
    have : x2.start m = x.now := by rw [s1, lift_start x o2 hl1, if_pos hi]
    rw [this, s2, n1]
    split <;> rfl
  · rw [if_pos g, s2, n1]

theorem lift_begins {e : Env} {x : T} {o' : Op} {m : Nat} (h : Ent e (x.op.st .run) (o'.st .run))
    (hm : (o'.st .run).main = some m) (hz : e.zeroDur m = false) (hn : (x.op.st .run).main ≠ some m) :
    (lift x o').start m = x.now := by
  obtain ⟨l, hl, gl⟩ := h
  rw [lift_start x o' hl, if_pos]
  exact (gl m hm hz).resolve_left hn

/-- A step that is begun has the time of this moment. -/
theorem begins_start {c : St → SCfg} {x y : T} {d m : Nat} {ev : Ev} (hs : Resume.step c x (d, ev) = some y)
    (hb : Begins m x.op ev y.op) : y.start m = x.now + d := by
  obtain ⟨hn, ⟨hc, hm⟩, hk⟩ := hb
  have hop := Resume.step_op hs
  have hcur := Operation.step_cur hop
  -- a change of the state the operation is in
  have stay : ∀ (e : Env) (r : OpState), y = lift { x with now := x.now + d } (x.op.upd x.op.cur r) →
      Ent e (x.op.st x.op.cur) r → e.zeroDur m = false → y.start m = x.now + d := by
    intro e r hy he hz
    have hr : x.op.cur = .run := by rw [hy] at hc; exact hc
    have hst : (x.op.upd x.op.cur r).st .run = r := by simp [Op.upd, hr]
    rw [hy] at hm ⊢
    refine lift_begins (e := e) (x := { x with now := x.now + d }) ?_ hm hz (fun g => hn ⟨hr, g⟩)
    rw [hst]; rw [hr] at he; exact he
  have starts : ∀ (e e2 : Env) (k : Int), y = Resume.start c e e2 k { x with now := x.now + d } →
      e.zeroDur m = false → e2.zeroDur m = false → y.start m = x.now + d := by
    intro e e2 k hy hz hz2
    have hyo : y.op = x.op.start c e e2 k := by rw [hy, Resume.start_op]
    have fresh : ∀ (o1 : Op), o1.st .run = x.op.st .run → y.op = o1.enter c e .run 1 → y.start = (lift { x with now := x.now + d } (o1.enter c e .run 1)).start →
        y.start m = x.now + d := by
      intro o1 h1 h2 h3
      obtain ⟨l, hl, gl⟩ := init_begins (c .run) e 1 (x.op.st .run)
      have e1 : (o1.enter c e .run 1).st .run = (x.op.st .run).init (c .run) e 1 := by simp [Op.enter, Op.upd, h1]
      rw [h3, lift_start { x with now := x.now + d } _ (l := l) (by rw [e1, hl]), if_pos]
      exact gl m (by rw [← e1, ← h2]; exact hm) hz
    cases g : x.op.cur
    case idle =>
      have ho : x.op.start c e e2 k = (x.op.fin .idle).enter c e (if (c .starting).empty then .run else .starting) 1 := by
        unfold Op.start; rw [g]
      by_cases hu : (c .starting).empty = true
      · rw [if_pos hu] at ho
        refine fresh (x.op.fin .idle) (by simp [Op.fin, Op.upd]) (by rw [hyo, ho]) ?_
        rw [hy]; unfold Resume.start; simp only [g]; rw [ho]
      · rw [if_neg hu] at ho
        rw [hyo, ho] at hc; cases hc
    case starting =>
      have ho : x.op.start c e e2 k = (x.op.fin .starting).enter c e .run 1 := by unfold Op.start; rw [g]
      refine fresh (x.op.fin .starting) (by simp [Op.fin, Op.upd]) (by rw [hyo, ho]) ?_
      rw [hy]; unfold Resume.start; simp only [g]; rw [ho]
    case pause =>
      by_cases hu : (c .unpausing).empty = true
      · have hy' : y = Resume.toRun c e e2 k (x.op.fin .pause) { x with now := x.now + d } := by
          rw [hy]; unfold Resume.start; simp only [g]; rw [if_pos hu]
        rw [hy'] at hm ⊢
        exact toRun_start (x := { x with now := x.now + d }) (by simp [Op.fin, Op.upd]) hz hz2 hm
      · have ho : x.op.start c e e2 k = ((x.op.fin .pause).enter c e .unpausing 1).evalCur c e2 := by
          unfold Op.start; rw [g]; simp only [hu]; rfl
        rw [hyo, ho] at hc; cases hc
    case unpausing =>
      have hy' : y = Resume.toRun c e e2 k x.op { x with now := x.now + d } := by
        rw [hy]; unfold Resume.start; simp only [g]
      rw [hy'] at hm ⊢
      exact toRun_start (x := { x with now := x.now + d }) rfl hz hz2 hm
    all_goals
      have ho : x.op.start c e e2 k = x.op := by unfold Op.start; rw [g]
      rw [hyo, ho] at hc hm
      exact (hn ⟨hc, hm⟩).elim
  cases ev
  case evaluate e =>
    refine stay e _ ?_ (Ent.evaluate (c x.op.cur) e (x.op.st x.op.cur)) hk
    simp only [Resume.step, Op.step, Option.map_some, Option.some.injEq] at hs
    exact hs.symm
  case toStep e k =>
    refine stay e _ ?_ (Ent.toStep (c x.op.cur) e k (x.op.st x.op.cur)) hk
    simp only [Resume.step, Op.step, Option.map_some, Option.some.injEq] at hs
    exact hs.symm
  case toNext e =>
    refine stay e _ ?_ (Ent.toNext (c x.op.cur) e (x.op.st x.op.cur)) hk
    simp only [Resume.step, Op.step, Option.map_some, Option.some.injEq] at hs
    exact hs.symm
  case turnOff =>
    refine stay {} _ ?_ (Ent.turnOff {} (x.op.st x.op.cur)) rfl
    simp only [Resume.step, Op.step, Option.map_some, Option.some.injEq] at hs
    exact hs.symm
  case onExtra e k =>
    simp only [Resume.step, Op.step, Option.map_eq_some_iff] at hs
    obtain ⟨o', ⟨r, h1, rfl⟩, rfl⟩ := hs
    exact stay {} _ rfl (Ent.onExtra h1) rfl
  case offExtra k =>
    refine stay {} _ ?_ (Ent.offExtra (c x.op.cur) {} k (x.op.st x.op.cur)) rfl
    simp only [Resume.step, Op.step, Option.map_some, Option.some.injEq] at hs
    exact hs.symm
  case switchExtra p q =>
    simp only [Resume.step, Op.step, Option.map_eq_some_iff] at hs
    obtain ⟨o', ⟨r, h1, rfl⟩, rfl⟩ := hs
    exact stay {} _ rfl (Ent.switchExtra h1) rfl
  case start e e2 k => exact starts e e2 k (Option.some.inj hs).symm hk.1 hk.2
  case startAgain e e2 => exact starts e e2 _ (Option.some.inj hs).symm hk.1 hk.2
  all_goals
    exfalso
    rw [hc] at hcur
    simp only [Operation.follow, Operation.Ev.cmd?] at hcur
    cases g : x.op.cur <;> rw [g] at hcur <;> simp only [Operation.diagram, Option.getD_some, Option.getD_none] at hcur <;>
      first
        | cases hcur
        | (split at hcur <;> cases hcur)

/-- The operation runs in step `m`, begun at `s`. -/
structure Since (c : St → SCfg) (m s t : Nat) (x : T) : Prop where
  cur : x.op.cur = .run
  here : In (c .run) m (x.op.st .run)
  start : x.start m = s
  now : x.now = t

theorem Since.stay {c : St → SCfg} {m s t : Nat} {x : T} (h : Since c m s t x) (d : Nat) {r : OpState}
    (hi : In (c .run) m r) (hk : Keep m (x.op.st .run) r) :
    Since c m s (t + d) (lift { x with now := x.now + d } (x.op.upd x.op.cur r)) := by
  have hst : (x.op.upd x.op.cur r).st .run = r := by simp [Op.upd, h.cur]
  refine ⟨h.cur, ?_, ?_, ?_⟩
  · show In _ m ((x.op.upd x.op.cur r).st .run)
    rw [hst]; exact hi
  · rw [lift_keep_start { x with now := x.now + d } _ (by rw [hst]; exact hk)]
    exact h.start
  · rw [(Resume.lift_frame _ _).1]
    show x.now + d = _
    rw [h.now]

theorem Since.step {c : St → SCfg} {m s t d : Nat} {x y : T} {ev : Ev} (h : Since c m s t x) (hl : Leaves m ev)
    (hs : Resume.step c x (d, ev) = some y) : Since c m s (t + d) y := by
  have hr := h.cur
  have starts : ∀ e e2 k, y = Resume.start c e e2 k { x with now := x.now + d } → Since c m s (t + d) y := by
    intro e e2 k hy
    have ho : x.op.start c e e2 k = x.op := by unfold Op.start; rw [hr]
    have : y = { x with now := x.now + d } := by
      rw [hy]; unfold Resume.start; simp only [hr]; rw [ho]; exact Resume.lift_same _ _ rfl
    subst this
    exact ⟨h.cur, h.here, h.start, by rw [← h.now]⟩
  cases ev
  case evaluate e =>
    have he := In.evaluate e h.here hl.1 hl.2.1 hl.2.2
    simp only [Resume.step, Op.step, Option.map_some, Option.some.injEq] at hs
    have hy : lift { x with now := x.now + d } (x.op.upd x.op.cur ((x.op.st x.op.cur).evaluate (c x.op.cur) e).1) = y := hs
    rw [← hy]
    exact h.stay d (by rw [hr]; exact he.1) (by rw [hr]; exact he.2)
  case onExtra e k =>
    simp only [Resume.step, Op.step, Option.map_eq_some_iff] at hs
    obtain ⟨o', ⟨r, h1, rfl⟩, rfl⟩ := hs
    rw [hr] at h1
    obtain ⟨a, b⟩ := h.here.onExtra h1
    exact h.stay d a b
  case switchExtra p q =>
    simp only [Resume.step, Op.step, Option.map_eq_some_iff] at hs
    obtain ⟨o', ⟨r, h1, rfl⟩, rfl⟩ := hs
    rw [hr] at h1
    obtain ⟨a, b⟩ := h.here.switchExtra h1
    exact h.stay d a b
  case offExtra k =>
    simp only [Resume.step, Op.step, Option.map_some, Option.some.injEq] at hs
    rw [← hs]
    exact h.stay d (by rw [hr]; exact (h.here.offExtra k).1) (by rw [hr]; exact (h.here.offExtra k).2)
  case start e e2 k => exact starts e e2 k (Option.some.inj hs).symm
  case startAgain e e2 => exact starts e e2 _ (Option.some.inj hs).symm
  all_goals exact hl.elim

theorem Since.runFrom {c : St → SCfg} {m s : Nat} (g : List (Nat × Ev)) : ∀ {t : Nat} {x y : T}, Since c m s t x →
    (∀ v ∈ g, Leaves m v.2) → Resume.runFrom c x g = some y → Since c m s (t + total g) y := by
  induction g with
  | nil => intro t x y h _ hy; cases hy; exact h
  | cons v g ih =>
    intro t x y h hl hy
    unfold Resume.runFrom at hy
    rw [Option.bind_eq_some_iff] at hy
    obtain ⟨z, h1, h2⟩ := hy
    have := ih (h.step (d := v.1) (hl v List.mem_cons_self) h1) (fun w hw => hl w (List.mem_cons_of_mem _ hw)) h2
    have e : t + v.1 + total g = t + total (v :: g) := (Nat.add_assoc t v.1 (total g))
    rw [← e]; exact this

theorem step_now {c : St → SCfg} {x y : T} {d m : Nat} {ev : Ev} (hs : Resume.step c x (d, ev) = some y)
    (hb : Begins m x.op ev y.op) : y.now = x.now + d := by
  have ad : ∀ x : T, (Resume.addDx x).now = x.now := by intro x; unfold Resume.addDx; split <;> rfl
  have tr : ∀ e e2 k o (x : T), (Resume.toRun c e e2 k o x).now = x.now := by
    intro e e2 k o x
    unfold Resume.toRun
    dsimp only
    rw [(Resume.lift_frame _ _).1]
    split
    · split
      · rw [ad]; exact (Resume.lift_frame _ _).1
      · exact (Resume.lift_frame _ _).1
    · split
      · rw [ad]; exact (Resume.lift_frame _ _).1
      · exact (Resume.lift_frame _ _).1
  have st : ∀ e e2 k (x : T), (Resume.start c e e2 k x).now = x.now := by
    intro e e2 k x
    unfold Resume.start
    split
    · exact (Resume.lift_frame _ _).1
    · exact (Resume.lift_frame _ _).1
    · split
      · exact tr _ _ _ _ _
      · exact (Resume.lift_frame _ _).1
    · exact tr _ _ _ _ _
    · exact (Resume.lift_frame _ _).1
  have kp : ∀ x : T, (Resume.keep x).now = x.now := by intro x; unfold Resume.keep; split <;> rfl
  have lv : ∀ o (x : T), (Resume.leave o x).now = x.now := by
    intro o x
    unfold Resume.leave
    split
    · rw [(Resume.lift_frame _ _).1, kp]
    · exact (Resume.lift_frame _ _).1
  cases ev <;> simp only [Resume.step, Option.some.injEq, Option.map_eq_some_iff] at hs
  case start e e2 k => rw [← hs, st]
  case startAgain e e2 => rw [← hs, st]
  case pause e e2 =>
    rw [← hs]
    unfold Resume.pause
    split
    · rw [(Resume.lift_frame _ _).1]; exact kp _
    · exact (Resume.lift_frame _ _).1
  case stop e e2 => rw [← hs, lv]
  case switchOff e e2 => rw [← hs, lv]
  case finalize =>
    rw [← hs]
    unfold Resume.finalize
    split
    · rfl
    · exact lv _ _
  all_goals
    obtain ⟨o', _, rfl⟩ := hs
    exact (Resume.lift_frame _ _).1

/-- From the beginning of a step on. -/
theorem Since.begin {c : St → SCfg} {h : List (Nat × Ev)} {x y : T} {d m : Nat} {ev : Ev} (hx : Resume.run c h = some x)
    (hs : Resume.step c x (d, ev) = some y) (hb : Begins m x.op ev y.op) (hn : m + 1 ∉ (y.op.st .run).extra) :
    Since c m (x.now + d) (x.now + d) y :=
  ⟨hb.2.1.1, ⟨((StepDur.Own.run hx).inv.step (Resume.step_op hs)).basic .run, hb.2.1.2, hn⟩, begins_start hs hb, step_now hs hb⟩

/-- No parallel step is late. -/
theorem checkExtra_none {steps : Nat} {maxOf el : Nat → Nat} : ∀ {l : List Nat},
    (∀ a ∈ l, maxOf (a - 1) = 0 ∨ el (a - 1) < 1000 * maxOf (a - 1)) → Actions.checkExtra steps maxOf el l = some none := by
  intro l
  induction l with
  | nil => intro _; rfl
  | cons a l ih =>
    intro h
    unfold Actions.checkExtra
    rw [if_neg]
    · exact ih fun b hb => h b (List.mem_cons_of_mem _ hb)
    · rintro ⟨h1, h2⟩
      rcases h a List.mem_cons_self with g | g
      · exact h1 g
      · omega

end Ptusa.StepMax
