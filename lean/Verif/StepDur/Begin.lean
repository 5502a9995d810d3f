import Verif.StepDur.Lemmas

namespace Ptusa.StepDur

open Operation (St SCfg Env Call OpState Op Ev Basic Inv)
open Resume (T Paused NoChange lift stamp1 newCalls evalTime stepTime Bound)

/-- The next step is that of the active step. -/
def Nx (c : SCfg) (r : OpState) : Prop := ∀ m, r.main = some m → r.nextN = c.next m

/-- A change in which an active step that is left is finalised. -/
structure Mv (c : SCfg) (r r' : OpState) : Prop where
  log : ∃ l, r'.log = r.log ++ l ∧ ∀ m, r.main = some m → r'.main = some m ∨ .fin (some m) ∈ l
  nx : Nx c r → Nx c r'

theorem Mv.refl (c : SCfg) (r : OpState) : Mv c r r := ⟨⟨[], by simp, fun _ h => Or.inl h⟩, id⟩

theorem Mv.same {c : SCfg} {r r' : OpState} (l : List Call) (h1 : r'.log = r.log ++ l) (h2 : r'.main = r.main)
    (h3 : r'.nextN = r.nextN) : Mv c r r' :=
  ⟨⟨l, h1, fun _ h => Or.inl (h2.trans h)⟩, fun h m g => by rw [h3]; exact h m (h2 ▸ g)⟩

theorem Mv.trans {c : SCfg} {a b d : OpState} (h1 : Mv c a b) (h2 : Mv c b d) : Mv c a d := by
  obtain ⟨l, hl, gl⟩ := h1.log
  obtain ⟨k, hk, gk⟩ := h2.log
  refine ⟨⟨l ++ k, by rw [hk, hl, List.append_assoc], fun m h => ?_⟩, fun h => h2.nx (h1.nx h)⟩
  rcases gl m h with g | g
  · rcases gk m g with g | g
    · exact Or.inl g
    · exact Or.inr (List.mem_append_right _ g)
  · exact Or.inr (List.mem_append_left _ g)

theorem Mv.initStep (c : SCfg) (r : OpState) (i : Nat) : Mv c r (r.initStep i) := Mv.same [.init (some i)] rfl rfl rfl
theorem Mv.evalStep (c : SCfg) (r : OpState) (i : Nat) : Mv c r (r.evalStep i) := Mv.same [.eval (some i)] rfl rfl rfl
theorem Mv.finStep (c : SCfg) (r : OpState) (i : Nat) : Mv c r (r.finStep i) := Mv.same [.fin (some i)] rfl rfl rfl

/-- The active step is finalised and replaced. -/
theorem Mv.replace (c : SCfg) (r : OpState) (o : Option Nat) (n : Int) (h : ∀ m, o = some m → n = c.next m) :
    Mv c r { r.finMain with main := o, nextN := n } := by
  refine ⟨?_, fun _ m g => h m g⟩
  unfold OpState.finMain
  cases hm : r.main with
  | none => exact ⟨[], by simp, fun m g => by cases g⟩
  | some m =>
    refine ⟨[.fin (some m)], rfl, fun m' g => Or.inr ?_⟩
    cases g
    simp

theorem Mv.turnOff (c : SCfg) (r : OpState) : Mv c r r.turnOff :=
  Mv.replace c r none r.finMain.nextN (fun _ g => by cases g)

theorem Mv.toStep (c : SCfg) (e : Env) (k : Int) (r : OpState) : Mv c r (r.toStep c e k) := by
  unfold OpState.toStep
  by_cases h : k ≤ 0 ∨ (c.steps : Int) < k
  · rw [if_pos h]; exact Mv.refl _ _
  · rw [if_neg h]
    have h1 := Mv.replace c r (some (k.toNat - 1)) (c.next (k.toNat - 1)) (fun m g => by cases g; rfl)
    dsimp only
    split
    · exact h1
    · exact (h1.trans (Mv.initStep _ _ _)).trans (Mv.evalStep _ _ _)

theorem Mv.offExtra (c : SCfg) (k : Int) (r : OpState) : Mv c r (r.offExtra c k) := by
  unfold OpState.offExtra
  split
  · exact Mv.refl _ _
  · split
    · exact Mv.same [.fin (some (k.toNat - 1))] rfl rfl rfl
    · exact Mv.refl _ _

theorem Mv.onExtraPos (c : SCfg) (e : Env) (k : Nat) (r : OpState) : Mv c r (r.onExtraPos c e k).1 := by
  unfold OpState.onExtraPos
  split
  · exact Mv.refl _ _
  · split
    · exact Mv.refl _ _
    · split
      · exact Mv.refl _ _
      · have h1 : Mv c r { r with extra := r.extra ++ [k] } := Mv.same [] (by simp) rfl rfl
        dsimp only
        split
        · exact (h1.trans (Mv.initStep _ _ _)).trans (Mv.evalStep _ _ _)
        · exact h1

theorem Mv.onExtra {c : SCfg} {e : Env} {k : Int} {r : OpState} {x : OpState × Nat}
    (h : r.onExtra c e k = some x) : Mv c r x.1 := by
  unfold OpState.onExtra at h
  split at h
  · cases h; exact Mv.refl _ _
  · split at h
    · split at h
      · cases h; exact Mv.refl _ _
      · cases h
    · cases h; exact Mv.onExtraPos _ _ _ _

theorem Mv.switchExtra {c : SCfg} {off on : Int} {r : OpState} {x : OpState × Nat}
    (h : r.switchExtra c off on = some x) : Mv c r x.1 := by
  unfold OpState.switchExtra at h
  split at h
  · cases h; exact Mv.refl _ _
  · split at h
    · cases h; exact Mv.refl _ _
    · split at h
      · split at h
        · cases h
        · cases h
          exact Mv.same [.fin (some (off.toNat - 1)), .init (some (on.toNat - 1)), .eval (some (on.toNat - 1))]
            (by simp [OpState.finStep, OpState.initStep, OpState.evalStep]) rfl rfl
      · cases h; exact Mv.refl _ _

theorem Mv.extraLoop (c : SCfg) (e : Env) : ∀ (fuel idx : Nat) (r : OpState), Mv c r (r.extraLoop c e fuel idx) := by
  intro fuel
  induction fuel with
  | zero => intro idx r; exact Mv.refl _ _
  | succ f ih =>
    intro idx r
    unfold OpState.extraLoop
    split
    · exact Mv.refl _ _
    · refine Mv.trans ?_ (ih _ _)
      unfold OpState.extraBody
      split
      · dsimp only
        split
        · exact (Mv.evalStep _ _ _).trans (Mv.offExtra _ _ _)
        · exact Mv.evalStep _ _ _
      · exact Mv.refl _ _

theorem Mv.enableLoop (c : SCfg) (e : Env) (r : OpState) : Mv c r (r.enableLoop c e) := by
  unfold OpState.enableLoop
  generalize List.range c.steps = l
  induction l generalizing r with
  | nil => exact Mv.refl _ _
  | cons a l ih =>
    refine Mv.trans ?_ (ih _)
    dsimp only
    split
    · exact Mv.refl _ _
    · split
      · exact Mv.onExtraPos _ _ _ _
      · exact Mv.refl _ _

theorem Mv.evalMain (c : SCfg) (e : Env) (r : OpState) : Mv c r (r.evalMain c e).1 := by
  unfold OpState.evalMain
  split
  · exact Mv.refl _ _
  · rename_i m _
    split
    · split
      · exact Mv.refl _ _
      · exact Mv.toStep _ _ _ _
    · cases e.jump m with
      | none =>
        dsimp only
        split
        · exact Mv.evalStep _ _ _
        · exact Mv.refl _ _
      | some k =>
        dsimp only
        split
        · exact (Mv.toStep _ _ _ _).trans (Mv.evalStep _ _ _)
        · exact Mv.toStep _ _ _ _

theorem Mv.evalNone (c : SCfg) (r : OpState) : Mv c r { r with log := r.log ++ [.eval none] } :=
  Mv.same [.eval none] rfl rfl rfl

theorem Mv.evaluate (c : SCfg) (e : Env) (r : OpState) : Mv c r (r.evaluate c e).1 := by
  unfold OpState.evaluate
  exact (((Mv.evalNone c r).trans (Mv.extraLoop _ _ _ _ _)).trans (Mv.enableLoop _ _ _)).trans (Mv.evalMain _ _ _)

theorem Mv.toNext (c : SCfg) (e : Env) (r : OpState) : Mv c r (r.toNext c e) := by
  unfold OpState.toNext
  split
  · exact Mv.refl _ _
  · split
    · exact Mv.toStep _ _ _ _
    · exact Mv.toStep _ _ _ _

theorem Mv.foldInit (c : SCfg) (l : List Nat) : ∀ r : OpState, Mv c r (l.foldl (fun r k => r.initStep (k - 1)) r) := by
  induction l with
  | nil => intro r; exact Mv.refl _ _
  | cons a l ih => intro r; exact (Mv.initStep c r _).trans (ih _)

theorem Mv.foldFin (c : SCfg) (l : List Nat) : ∀ r : OpState, Mv c r (l.foldl (fun r k => r.finStep (k - 1)) r) := by
  induction l with
  | nil => intro r; exact Mv.refl _ _
  | cons a l ih => intro r; exact (Mv.finStep c r _).trans (ih _)

theorem Mv.init (c : SCfg) (e : Env) (k : Int) (r : OpState) (h : r.main = none) : Mv c r (r.init c e k) := by
  have h1 : Mv c r { r with mode := true, log := r.log ++ [.init none], main := none } :=
    Mv.same [.init none] rfl h.symm rfl
  unfold OpState.init
  dsimp only
  split
  · exact h1
  · exact (h1.trans (Mv.toStep _ _ _ _)).trans (Mv.foldInit _ _ _)

theorem Mv.dropExtra (c : SCfg) (r : OpState) : Mv c r { r with extra := [] } := Mv.same [] (by simp) rfl rfl

theorem Mv.finalize (c : SCfg) (r : OpState) : Mv c r r.finalize := by
  have h1 : Mv c r { r with mode := false, log := r.log ++ [.fin none] } := Mv.same [.fin none] rfl rfl rfl
  unfold OpState.finalize
  dsimp only
  exact ((h1.trans (Mv.turnOff c _)).trans (Mv.foldFin c _ _)).trans (Mv.dropExtra c _)

/-! ### Operations -/

theorem mv_upd {c : St → SCfg} {o : Op} {r : OpState} (h : Mv (c o.cur) (o.st o.cur) r) :
    Mv (c .run) (o.st .run) ((o.upd o.cur r).st .run) := by
  by_cases g : o.cur = .run
  · rw [g] at h ⊢
    simpa [Op.upd] using h
  · have : (o.upd o.cur r).st .run = o.st .run := by simp [Op.upd, Ne.symm g]
    rw [this]; exact Mv.refl _ _

/-- RUN of an operation that does not run has no active step. -/
theorem run_main {c : St → SCfg} {o : Op} (h : Inv c o) (g : o.cur ≠ .run) : (o.st .run).main = none :=
  (h.quiet .run (Or.inl (by decide)) (by simpa using g)).main

/-- The times kept in the steps belong to the active one. -/
structure Own (c : St → SCfg) (x : T) : Prop where
  inv : Inv c x.op
  nx : Nx (c .run) (x.op.st .run)
  dx : ∀ i, x.dx i ≠ 0 → (x.op.st .run).main = some i

theorem stamp_dx_le (l : List Call) (i : Nat) : ∀ x : T,
    (l.foldl stamp1 x).dx i = if Call.fin (some i) ∈ l then 0 else x.dx i := by
  induction l with
  | nil => intro x; rfl
  | cons a l ih =>
    intro x
    rw [List.foldl_cons, ih]
    by_cases h : Call.fin (some i) ∈ l
    · rw [if_pos h, if_pos (List.mem_cons_of_mem _ h)]
    · rw [if_neg h]
      by_cases ha : a = .fin (some i)
      · subst ha; simp [stamp1]
      · rw [if_neg (by simp [h, Ne.symm ha])]
        unfold stamp1
        split <;> try rfl
        rename_i j
        show (if i = j then 0 else x.dx i) = x.dx i
        rw [if_neg]
        rintro rfl
        exact ha rfl

theorem own_lift {c : St → SCfg} {x : T} {o' : Op} (hn : Nx (c .run) (x.op.st .run))
    (hd : ∀ i, x.dx i ≠ 0 → (x.op.st .run).main = some i) (hm : Mv (c .run) (x.op.st .run) (o'.st .run)) :
    Nx (c .run) (o'.st .run) ∧ ∀ i, (lift x o').dx i ≠ 0 → (o'.st .run).main = some i := by
  refine ⟨hm.nx hn, fun i hi => ?_⟩
  obtain ⟨l, hl, gl⟩ := hm.log
  have h1 : (lift x o').dx i = if Call.fin (some i) ∈ l then 0 else x.dx i := by
    show ((newCalls x.op o').foldl stamp1 x).dx i = _
    rw [Resume.newCalls_of hl, stamp_dx_le]
  rw [h1] at hi
  by_cases hf : Call.fin (some i) ∈ l
  · rw [if_pos hf] at hi; exact absurd rfl hi
  · rw [if_neg hf] at hi
    rcases gl i (hd i hi) with g | g
    · exact g
    · exact absurd g hf

theorem own_addDx {c : St → SCfg} {x : T} (h : Nx (c .run) (x.op.st .run) ∧ ∀ i, x.dx i ≠ 0 → (x.op.st .run).main = some i) :
    Nx (c .run) ((Resume.addDx x).op.st .run) ∧
    ∀ i, (Resume.addDx x).dx i ≠ 0 → ((Resume.addDx x).op.st .run).main = some i := by
  rw [(Resume.addDx_frame x).1]
  refine ⟨h.1, fun i hi => ?_⟩
  unfold Resume.addDx at hi
  cases hm : (x.op.st .run).main with
  | none => simp only [hm] at hi; rw [← hm]; exact h.2 i hi
  | some m =>
    simp only [hm] at hi
    by_cases e : i = m
    · rw [e]
    · rw [if_neg e] at hi; rw [← hm]; exact h.2 i hi

theorem own_toRun {c : St → SCfg} {x : T} {o : Op} (e e2 : Env) (k : Int) (ho : o.st .run = x.op.st .run)
    (hz : (x.op.st .run).main = none) (hn : Nx (c .run) (x.op.st .run))
    (hd : ∀ i, x.dx i ≠ 0 → (x.op.st .run).main = some i) :
    Nx (c .run) ((Resume.toRun c e e2 k o x).op.st .run) ∧
    ∀ i, (Resume.toRun c e e2 k o x).dx i ≠ 0 → ((Resume.toRun c e e2 k o x).op.st .run).main = some i := by
  unfold Resume.toRun
  dsimp only
  generalize (if 0 < k then k else if 0 < o.runStep then o.runStep else 1) = q
  have ho2 : ((o.upd .run (o.st .run).load).enter c e .run q).st .run = ((o.st .run).load).init (c .run) e q := by
    simp [Op.enter, Op.upd]
  generalize hoo : (o.upd .run (o.st .run).load).enter c e .run q = o2 at ho2
  have hc2 : o2.cur = .run := by rw [← hoo]; rfl
  have hm2 : Mv (c .run) (x.op.st .run) (o2.st .run) := by
    rw [ho2, ho]
    have h1 : Mv (c .run) (x.op.st .run) (x.op.st .run).load := Mv.same [] (by simp [OpState.load]) rfl rfl
    exact h1.trans (Mv.init _ _ _ _ hz)
  have h1 := own_lift (c := c) (x := x) (o' := o2) hn hd hm2
  have h3 : ∀ y : T, y.op = o2 → (Nx (c .run) (y.op.st .run) ∧ ∀ i, y.dx i ≠ 0 → (y.op.st .run).main = some i) →
      Nx (c .run) ((lift y (o2.evalCur c e2)).op.st .run) ∧
      ∀ i, (lift y (o2.evalCur c e2)).dx i ≠ 0 → ((lift y (o2.evalCur c e2)).op.st .run).main = some i := by
    intro y hy g
    refine own_lift g.1 g.2 ?_
    rw [hy]
    exact mv_upd (Mv.evaluate _ _ _)
  apply h3
  · split
    · split
      · exact (Resume.addDx_frame _).1
      · rfl
    · split
      · exact (Resume.addDx_frame _).1
      · rfl
  · have h2 := own_addDx (c := c) (x := lift x o2) h1
    split
    · split
      · exact h2
      · exact h1
    · split
      · exact h2
      · exact h1

theorem mv_enter_other {c : St → SCfg} {o : Op} {e : Env} {s : St} {k : Int} (h : s ≠ .run) :
    (o.enter c e s k).st .run = o.st .run := by simp [Op.enter, Op.upd, Ne.symm h]

theorem mv_enter {c : St → SCfg} {o : Op} {e : Env} {s : St} {k : Int} (h : (o.st .run).main = none) :
    Mv (c .run) (o.st .run) ((o.enter c e s k).st .run) := by
  by_cases hs : s = .run
  · subst hs
    have : (o.enter c e .run k).st .run = (o.st .run).init (c .run) e k := by simp [Op.enter, Op.upd]
    rw [this]; exact Mv.init _ _ _ _ h
  · rw [mv_enter_other hs]; exact Mv.refl _ _

theorem mv_fin {c : St → SCfg} {o : Op} {s : St} : Mv (c .run) (o.st .run) ((o.fin s).st .run) := by
  by_cases hs : s = .run
  · subst hs
    have : (o.fin .run).st .run = (o.st .run).finalize := by simp [Op.fin, Op.upd]
    rw [this]; exact Mv.finalize _ _
  · have : (o.fin s).st .run = o.st .run := by simp [Op.fin, Op.upd, Ne.symm hs]
    rw [this]; exact Mv.refl _ _

theorem fin_main {c : St → SCfg} {o : Op} (h : Inv c o) : ((o.fin o.cur).st .run).main = none := by
  by_cases hs : o.cur = .run
  · have : (o.fin o.cur).st .run = (o.st .run).finalize := by rw [hs]; simp [Op.fin, Op.upd]
    rw [this]; exact Operation.finalize_main _
  · have : (o.fin o.cur).st .run = o.st .run := by simp [Op.fin, Op.upd, Ne.symm hs]
    rw [this]; exact run_main h hs

/-- Leaving the current state for another one. -/
theorem mv_leave {c : St → SCfg} {o : Op} (h : Inv c o) {e : Env} {s : St} {k : Int} :
    Mv (c .run) (o.st .run) (((o.fin o.cur).enter c e s k).st .run) :=
  mv_fin.trans (mv_enter (fin_main h))

theorem mv_evalCur {c : St → SCfg} {o : Op} {e : Env} : Mv (c .run) (o.st .run) ((o.evalCur c e).st .run) :=
  mv_upd (Mv.evaluate _ _ _)

theorem mv_start {c : St → SCfg} {o : Op} (h : Inv c o) (e e2 : Env) (k : Int)
    (hp : ¬ (o.cur = .pause ∧ (c .unpausing).empty = true)) (hu : o.cur ≠ .unpausing) :
    Mv (c .run) (o.st .run) ((o.start c e e2 k).st .run) := by
  unfold Op.start
  split
  · rename_i g; rw [← g]; exact mv_leave h
  · rename_i g
    split
    · rename_i g2; exact absurd ⟨g, g2⟩ hp
    · rw [← g]; exact (mv_leave h).trans mv_evalCur
  · rename_i g; rw [← g]; exact mv_leave h
  · rename_i g; exact absurd g hu
  · exact Mv.refl _ _

theorem mv_pause {c : St → SCfg} {o : Op} (h : Inv c o) (e e2 : Env) :
    Mv (c .run) (o.st .run) ((o.pause c e e2).st .run) := by
  by_cases hr : o.cur = .run
  · rw [(Resume.pause_run hr).1]
    have h1 : Mv (c .run) (o.st .run) (o.st .run).save := Mv.same [] (by simp [OpState.save]) rfl rfl
    exact h1.trans (Mv.finalize _ _)
  · unfold Op.pause
    split
    · rename_i g; exact absurd g hr
    · rename_i g; rw [← g]; exact mv_leave h
    · exact Mv.refl _ _

theorem mv_stop {c : St → SCfg} {o : Op} (h : Inv c o) (e e2 : Env) :
    Mv (c .run) (o.st .run) ((o.stop c e e2).st .run) := by
  have hA : ∀ s s', o.cur = s → Mv (c .run) (o.st .run) ((((o.fin s).enter c e s' 1).evalCur c e2).st .run) := by
    intro s s' g
    rw [← g]
    exact (mv_leave h).trans mv_evalCur
  unfold Op.stop
  cases g : o.cur
  case run => exact hA _ _ g
  case pause => exact hA _ _ g
  case starting => exact hA _ _ g
  case pausing => exact hA _ _ g
  case unpausing => exact hA _ _ g
  case stopping => exact hA _ _ g
  all_goals exact Mv.refl _ _

theorem own_start {c : St → SCfg} {x : T} (h : Own c x) (e e2 : Env) (k : Int) :
    Nx (c .run) ((Resume.start c e e2 k x).op.st .run) ∧
    ∀ i, (Resume.start c e e2 k x).dx i ≠ 0 → ((Resume.start c e e2 k x).op.st .run).main = some i := by
  have hl : ¬ (x.op.cur = .pause ∧ (c .unpausing).empty = true) → x.op.cur ≠ .unpausing → _ := fun h1 h2 =>
    own_lift (c := c) (x := x) (o' := x.op.start c e e2 k) h.nx h.dx (mv_start h.inv e e2 k h1 h2)
  unfold Resume.start
  split
  · rename_i g; exact hl (fun q => by rw [g] at q; cases q.1) (by rw [g]; decide)
  · rename_i g; exact hl (fun q => by rw [g] at q; cases q.1) (by rw [g]; decide)
  · rename_i g
    split
    · exact own_toRun e e2 k (by simp [Op.fin, Op.upd]) (run_main h.inv (by rw [g]; decide)) h.nx h.dx
    · rename_i g2; exact hl (fun q => g2 q.2) (by rw [g]; decide)
  · rename_i g
    exact own_toRun e e2 k rfl (run_main h.inv (by rw [g]; decide)) h.nx h.dx
  · rename_i g1 g2; exact hl (fun q => by simp_all) (by simp_all)

theorem own_keep {c : St → SCfg} {x : T} {o' : Op} (h : Own c x) (hm : Mv (c .run) (x.op.st .run) (o'.st .run)) :
    Nx (c .run) ((Resume.leave o' x).op.st .run) ∧
    ∀ i, (Resume.leave o' x).dx i ≠ 0 → ((Resume.leave o' x).op.st .run).main = some i := by
  unfold Resume.leave
  split
  · refine own_lift ?_ ?_ ?_
    · rw [(Resume.keep_frame x).1]; exact h.nx
    · rw [(Resume.keep_frame x).1, (Resume.keep_frame x).2.2.2.1]; exact h.dx
    · rw [(Resume.keep_frame x).1]; exact hm
  · exact own_lift h.nx h.dx hm

theorem Own.step {c : St → SCfg} {x y : T} {v : Nat × Ev} (h : Own c x) (hs : Resume.step c x v = some y) : Own c y := by
  have hop := Resume.step_op hs
  have hI := h.inv.step hop
  have h0 : Own c { x with now := x.now + v.1 } := ⟨h.inv, h.nx, h.dx⟩
  suffices hh : Nx (c .run) (y.op.st .run) ∧ ∀ i, y.dx i ≠ 0 → (y.op.st .run).main = some i from ⟨hI, hh.1, hh.2⟩
  obtain ⟨d, ev⟩ := v
  cases ev <;> simp only [Resume.step, Option.some.injEq, Option.map_eq_some_iff] at hs
  case start e e2 k => subst hs; exact own_start h0 e e2 k
  case startAgain e e2 => subst hs; exact own_start h0 e e2 _
  case pause e e2 =>
    subst hs
    unfold Resume.pause
    split
    · refine own_lift ?_ ?_ ?_
      · show Nx _ ((Resume.keep _).op.st .run)
        rw [(Resume.keep_frame _).1]; exact h.nx
      · show ∀ i, (Resume.keep _).dx i ≠ 0 → ((Resume.keep _).op.st .run).main = some i
        rw [(Resume.keep_frame _).1, (Resume.keep_frame _).2.2.2.1]; exact h.dx
      · show Mv _ ((Resume.keep _).op.st .run) _
        rw [(Resume.keep_frame _).1]; exact mv_pause h.inv e e2
    · exact own_lift h.nx h.dx (mv_pause h.inv e e2)
  case stop e e2 => subst hs; exact own_keep h0 (mv_stop h.inv e e2)
  case switchOff e e2 =>
    subst hs
    refine own_keep h0 ?_
    unfold Op.switchOff
    split
    · exact Mv.refl _ _
    · exact (mv_leave h.inv).trans mv_evalCur
  case finalize =>
    subst hs
    unfold Resume.finalize
    split
    · exact ⟨h.nx, h.dx⟩
    · rename_i g
      refine own_keep h0 ?_
      show Mv _ _ ((Op.finalize _).st .run)
      unfold Op.finalize
      rw [if_neg g]
      exact mv_fin
  case evaluate e => obtain ⟨o', h1, rfl⟩ := hs; cases h1; exact own_lift h.nx h.dx mv_evalCur
  case toStep e k => obtain ⟨o', h1, rfl⟩ := hs; cases h1; exact own_lift h.nx h.dx (mv_upd (Mv.toStep _ _ _ _))
  case toNext e => obtain ⟨o', h1, rfl⟩ := hs; cases h1; exact own_lift h.nx h.dx (mv_upd (Mv.toNext _ _ _))
  case turnOff => obtain ⟨o', h1, rfl⟩ := hs; cases h1; exact own_lift h.nx h.dx (mv_upd (Mv.turnOff _ _))
  case offExtra k => obtain ⟨o', h1, rfl⟩ := hs; cases h1; exact own_lift h.nx h.dx (mv_upd (Mv.offExtra _ _ _))
  case onExtra e k =>
    obtain ⟨o', h1, rfl⟩ := hs
    simp only [Op.step, Option.map_eq_some_iff] at h1
    obtain ⟨r, hr, rfl⟩ := h1
    exact own_lift h.nx h.dx (mv_upd (Mv.onExtra hr))
  case switchExtra a b =>
    obtain ⟨o', h1, rfl⟩ := hs
    simp only [Op.step, Option.map_eq_some_iff] at h1
    obtain ⟨r, hr, rfl⟩ := h1
    exact own_lift h.nx h.dx (mv_upd (Mv.switchExtra hr))

theorem Own.runFrom {c : St → SCfg} (h : List (Nat × Ev)) : ∀ {x y : T}, Own c x → Resume.runFrom c x h = some y →
    Own c y := by
  induction h with
  | nil => intro x y hb e; cases e; exact hb
  | cons v h ih =>
    intro x y hb e
    unfold Resume.runFrom at e
    cases h1 : Resume.step c x v with
    | none => rw [h1] at e; cases e
    | some z => rw [h1] at e; exact ih (hb.step h1) e

theorem Own.run {c : St → SCfg} {h : List (Nat × Ev)} {x : T} (e : Resume.run c h = some x) : Own c x := by
  refine Own.runFrom h (x := { op := Op.fresh c }) ⟨Operation.inv_fresh c, ?_, ?_⟩ e
  · intro m g; simp [Op.fresh] at g
  · intro i g; exact absurd rfl g

/-- Entering a step. -/
theorem enter_time {c : St → SCfg} {x : T} {o' : Op} {l : List Call} {i : Nat} (h : Own c x)
    (hl : (o'.st .run).log = (x.op.st .run).log ++ l) (hi : .init (some i) ∈ l)
    (hf : (x.op.st .run).main = some i → .fin (some i) ∈ l) (hm : (o'.st .run).main = some i) :
    stepTime (lift x o') = 0 := by
  have h1 : (lift x o').start i = x.now := by
    show ((Resume.newCalls x.op o').foldl Resume.stamp1 x).start i = _
    rw [Resume.newCalls_of hl, Resume.stamp_start, if_pos hi]
  have h2 : (lift x o').dx i = 0 := by
    show ((Resume.newCalls x.op o').foldl Resume.stamp1 x).dx i = _
    rw [Resume.newCalls_of hl, stamp_dx_le]
    split
    · rfl
    · rename_i hn
      by_cases g : x.dx i = 0
      · exact g
      · exact absurd (hf (h.dx i g)) hn
  unfold stepTime
  show (match (o'.st .run).main with
    | some m => evalTime (lift x o') m
    | none => 0) = 0
  rw [hm]
  show evalTime (lift x o') i = 0
  unfold evalTime
  rw [h1, h2, (Resume.lift_frame x o').1]
  omega

/-- The calls of a change of steps. -/
theorem toStep_calls {c : SCfg} {e : Env} {k : Nat} {r : OpState} (h1 : 1 ≤ k) (h2 : k ≤ c.steps)
    (hz : e.zeroDur (k - 1) = false) : ∃ l, (r.toStep c e k).log = r.log ++ l ∧ .init (some (k - 1)) ∈ l ∧
      (∀ m, r.main = some m → .fin (some m) ∈ l) ∧ (r.toStep c e k).main = some (k - 1) := by
  have hm := Resume.toStep_main (c := c) (e := e) (r := r) h1 h2
  have hl : (r.toStep c e k).log = r.finMain.log ++ [.init (some (k - 1)), .eval (some (k - 1))] := by
    unfold OpState.toStep
    rw [if_neg (by omega)]
    dsimp only
    have : (k : Int).toNat = k := by omega
    rw [this, hz]
    simp [OpState.initStep, OpState.evalStep]
  unfold OpState.finMain at hl
  cases hr : r.main with
  | none =>
    rw [hr] at hl
    exact ⟨_, hl, by simp, fun _ g => (by cases g), hm⟩
  | some m =>
    rw [hr] at hl
    refine ⟨.fin (some m) :: [.init (some (k - 1)), .eval (some (k - 1))], ?_, by simp, ?_, hm⟩
    · rw [hl]; simp [OpState.finStep]
    · intro m' g; cases g; simp

end Ptusa.StepDur
