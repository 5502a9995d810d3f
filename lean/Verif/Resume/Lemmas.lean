import Verif.Resume.Model
import Verif.Resume.Spec
import Verif.Operation.Lemmas
import Mathlib.Data.List.Induction

namespace Ptusa.Resume

open Operation (St SCfg Env Call OpState Op Ev Basic Inv)

/-! ### Calls made while the state stays active -/

/-- Only calls of steps, or evaluations, were added. -/
def Grow (r r' : OpState) : Prop := ∃ l, r'.log = r.log ++ l ∧ ∀ x ∈ l, x ≠ .init none ∧ x ≠ .fin none

theorem Grow.refl (r : OpState) : Grow r r := ⟨[], by simp, by simp⟩

theorem Grow.of_log {r r' : OpState} (h : r'.log = r.log) : Grow r r' := ⟨[], by simp [h], by simp⟩

theorem Grow.trans {a b d : OpState} (h1 : Grow a b) (h2 : Grow b d) : Grow a d := by
  obtain ⟨l, hl, gl⟩ := h1
  obtain ⟨k, hk, gk⟩ := h2
  refine ⟨l ++ k, by rw [hk, hl, List.append_assoc], fun x hx => ?_⟩
  rcases List.mem_append.1 hx with hx | hx
  · exact gl x hx
  · exact gk x hx

theorem Grow.initStep (r : OpState) (i : Nat) : Grow r (r.initStep i) :=
  ⟨[.init (some i)], rfl, by simp⟩

theorem Grow.evalStep (r : OpState) (i : Nat) : Grow r (r.evalStep i) :=
  ⟨[.eval (some i)], rfl, by simp⟩

theorem Grow.finStep (r : OpState) (i : Nat) : Grow r (r.finStep i) :=
  ⟨[.fin (some i)], rfl, by simp⟩

theorem Grow.finMain (r : OpState) : Grow r r.finMain := by
  unfold OpState.finMain
  split
  · exact Grow.finStep _ _
  · exact Grow.refl _

theorem Grow.toStep (c : SCfg) (e : Env) (k : Int) (r : OpState) : Grow r (r.toStep c e k) := by
  unfold OpState.toStep
  by_cases h : k ≤ 0 ∨ (c.steps : Int) < k
  · rw [if_pos h]; exact Grow.refl _
  · rw [if_neg h]
    have h1 : Grow r { r.finMain with main := some (k.toNat - 1), nextN := c.next (k.toNat - 1) } :=
      (Grow.finMain r).trans (Grow.of_log rfl)
    dsimp only
    split
    · exact h1
    · exact (h1.trans (Grow.initStep _ _)).trans (Grow.evalStep _ _)

theorem Grow.offExtra (c : SCfg) (k : Int) (r : OpState) : Grow r (r.offExtra c k) := by
  unfold OpState.offExtra
  split
  · exact Grow.refl _
  · split
    · exact (Grow.finStep r _).trans (Grow.of_log rfl)
    · exact Grow.refl _

theorem Grow.onExtraPos (c : SCfg) (e : Env) (k : Nat) (r : OpState) : Grow r (r.onExtraPos c e k).1 := by
  unfold OpState.onExtraPos
  split
  · exact Grow.refl _
  · split
    · exact Grow.refl _
    · split
      · exact Grow.refl _
      · have h1 : Grow r { r with extra := r.extra ++ [k] } := Grow.of_log rfl
        dsimp only
        split
        · exact (h1.trans (Grow.initStep _ _)).trans (Grow.evalStep _ _)
        · exact h1

theorem Grow.onExtra {c : SCfg} {e : Env} {k : Int} {r : OpState} {x : OpState × Nat}
    (h : r.onExtra c e k = some x) : Grow r x.1 := by
  unfold OpState.onExtra at h
  split at h
  · cases h; exact Grow.refl _
  · split at h
    · split at h
      · cases h; exact Grow.refl _
      · cases h
    · cases h; exact Grow.onExtraPos _ _ _ _

theorem Grow.switchExtra {c : SCfg} {off on : Int} {r : OpState} {x : OpState × Nat}
    (h : r.switchExtra c off on = some x) : Grow r x.1 := by
  unfold OpState.switchExtra at h
  split at h
  · cases h; exact Grow.refl _
  · split at h
    · cases h; exact Grow.refl _
    · split at h
      · split at h
        · cases h
        · cases h
          exact (((Grow.finStep r _).trans (Grow.initStep _ _)).trans (Grow.evalStep _ _)).trans (Grow.of_log rfl)
      · cases h; exact Grow.refl _

theorem Grow.extraLoop (c : SCfg) (e : Env) : ∀ (fuel idx : Nat) (r : OpState), Grow r (r.extraLoop c e fuel idx) := by
  intro fuel
  induction fuel with
  | zero => intro idx r; exact Grow.refl _
  | succ f ih =>
    intro idx r
    unfold OpState.extraLoop
    split
    · exact Grow.refl _
    · refine Grow.trans ?_ (ih _ _)
      unfold OpState.extraBody
      split
      · dsimp only
        split
        · exact (Grow.evalStep _ _).trans (Grow.offExtra _ _ _)
        · exact Grow.evalStep _ _
      · exact Grow.refl _

theorem Grow.enableLoop (c : SCfg) (e : Env) (r : OpState) : Grow r (r.enableLoop c e) := by
  unfold OpState.enableLoop
  generalize List.range c.steps = l
  induction l generalizing r with
  | nil => exact Grow.refl _
  | cons a l ih =>
    refine Grow.trans ?_ (ih _)
    dsimp only
    split
    · exact Grow.refl _
    · split
      · exact Grow.onExtraPos _ _ _ _
      · exact Grow.refl _

theorem Grow.evalMain (c : SCfg) (e : Env) (r : OpState) : Grow r (r.evalMain c e).1 := by
  unfold OpState.evalMain
  split
  · exact Grow.refl _
  · rename_i m _
    split
    · split
      · exact Grow.refl _
      · exact Grow.toStep _ _ _ _
    · cases e.jump m with
      | none =>
        dsimp only
        split
        · exact Grow.evalStep _ _
        · exact Grow.refl _
      | some k =>
        dsimp only
        split
        · exact (Grow.toStep _ _ _ _).trans (Grow.evalStep _ _)
        · exact Grow.toStep _ _ _ _

theorem Grow.evaluate (c : SCfg) (e : Env) (r : OpState) : Grow r (r.evaluate c e).1 := by
  have h1 : Grow r { r with log := r.log ++ [.eval none] } := ⟨[.eval none], rfl, by simp⟩
  unfold OpState.evaluate
  exact ((h1.trans (Grow.extraLoop _ _ _ _ _)).trans (Grow.enableLoop _ _ _)).trans (Grow.evalMain _ _ _)

theorem Grow.turnOff (r : OpState) : Grow r r.turnOff := (Grow.finMain r).trans (Grow.of_log rfl)

theorem Grow.toNext (c : SCfg) (e : Env) (r : OpState) : Grow r (r.toNext c e) := by
  unfold OpState.toNext
  split
  · exact Grow.refl _
  · split
    · exact Grow.toStep _ _ _ _
    · exact Grow.toStep _ _ _ _

theorem Grow.foldInit (l : List Nat) : ∀ r : OpState, Grow r (l.foldl (fun r k => r.initStep (k - 1)) r) := by
  induction l with
  | nil => intro r; exact Grow.refl _
  | cons a l ih => intro r; exact (Grow.initStep r _).trans (ih _)

/-! ### A quiet evaluation -/

theorem extraLoop_quiet (c : SCfg) {e : Env} (he : NoChange e) : ∀ (fuel idx : Nat) (r : OpState),
    ∃ l, r.extraLoop c e fuel idx = { r with log := r.log ++ l } ∧ ∀ x ∈ l, ∃ i, x = .eval i := by
  intro fuel
  induction fuel with
  | zero => intro idx r; exact ⟨[], by simp [OpState.extraLoop], by simp⟩
  | succ f ih =>
    intro idx r
    unfold OpState.extraLoop
    split
    · exact ⟨[], by simp, by simp⟩
    · rename_i k _
      unfold OpState.extraBody
      by_cases hk : k - 1 < c.steps
      · rw [if_pos hk]
        simp only [he.offSig, Bool.false_eq_true, if_false]
        obtain ⟨l, hl, gl⟩ := ih (idx + 1) (r.evalStep (k - 1))
        refine ⟨.eval (some (k - 1)) :: l, by rw [hl]; simp [OpState.evalStep], ?_⟩
        intro x hx
        rcases List.mem_cons.1 hx with rfl | hx
        · exact ⟨_, rfl⟩
        · exact gl x hx
      · rw [if_neg hk]
        exact ih _ _

theorem enableLoop_quiet (c : SCfg) {e : Env} (he : NoChange e) (r : OpState) : r.enableLoop c e = r := by
  unfold OpState.enableLoop
  generalize List.range c.steps = l
  induction l with
  | nil => rfl
  | cons a l ih => simp only [List.foldl_cons, he.onSig, Bool.false_eq_true, if_false, ite_self]; simpa [he.onSig] using ih

theorem evaluate_quiet (c : SCfg) {e : Env} (he : NoChange e) (r : OpState) :
    ∃ l, (r.evaluate c e).1 = { r with log := r.log ++ l } ∧ ∀ x ∈ l, ∃ i, x = .eval i := by
  unfold OpState.evaluate
  dsimp only
  obtain ⟨l, hl, gl⟩ := extraLoop_quiet c he r.extra.length 0 { r with log := r.log ++ [.eval none] }
  rw [hl, enableLoop_quiet c he]
  unfold OpState.evalMain
  dsimp only
  have g2 : ∀ x ∈ Call.eval none :: l, ∃ i, x = Call.eval i := by
    intro x hx
    rcases List.mem_cons.1 hx with rfl | hx
    · exact ⟨_, rfl⟩
    · exact gl x hx
  cases hm : r.main with
  | none => exact ⟨.eval none :: l, by simp, g2⟩
  | some m =>
    simp only [he.zeroDur, he.elapsed, he.jump, Bool.or_self, Bool.false_eq_true, if_false]
    refine ⟨(.eval none :: l) ++ [.eval (some m)], by simp [OpState.evalStep], ?_⟩
    intro x hx
    rcases List.mem_append.1 hx with hx | hx
    · exact g2 x hx
    · exact ⟨some m, by simpa using hx⟩

/-! ### Operations -/

theorem paused_frame {c : St → SCfg} {o o' : Op} {ev : Ev} (hp : Paused o) (hs : o.step c ev = some o')
    (hp' : Paused o') : o'.st .run = o.st .run ∧ o'.runStep = o.runStep := by
  refine ⟨Operation.step_frame hs .run ?_ ?_, ?_⟩
  · rcases hp with h | h | h <;> rw [h] <;> decide
  · rcases hp' with h | h | h <;> rw [h] <;> decide
  · have hc : o.cur ≠ .run := by rcases hp with h | h | h <;> rw [h] <;> decide
    have key : ∀ e e2 k, (o.start c e e2 k).runStep = o.runStep := by
      intro e e2 k
      unfold Op.start
      split
      · rfl
      · split <;> rfl
      · rfl
      · rfl
      · rfl
    cases ev <;> simp only [Op.step, Option.some.injEq, Option.map_eq_some_iff] at hs
    case start e e2 k => subst hs; exact key _ _ _
    case startAgain e e2 => subst hs; exact key _ _ _
    case pause e e2 =>
      subst hs
      unfold Op.pause
      split
      · rename_i h; exact absurd h hc
      · rfl
      · rfl
    case stop e e2 =>
      subst hs; unfold Op.stop
      split <;> rfl
    case switchOff e e2 => subst hs; unfold Op.switchOff; split <;> rfl
    case finalize => subst hs; unfold Op.finalize; split <;> rfl
    case onExtra e k => obtain ⟨x, _, rfl⟩ := hs; rfl
    case switchExtra a b => obtain ⟨x, _, rfl⟩ := hs; rfl
    all_goals subst hs; rfl

theorem stays_frame {c : St → SCfg} (es : List Ev) : ∀ {o o' : Op}, StaysPaused c o es o' →
    o'.st .run = o.st .run ∧ o'.runStep = o.runStep ∧ Paused o' := by
  induction es with
  | nil => rintro o o' ⟨hp, rfl⟩; exact ⟨rfl, rfl, hp⟩
  | cons v es ih =>
    rintro o o' ⟨hp, o1, h1, h2⟩
    obtain ⟨a, b, d⟩ := ih h2
    have hp1 : Paused o1 := by cases es with
      | nil => exact h2.1
      | cons _ _ => exact h2.1
    obtain ⟨a1, b1⟩ := paused_frame hp h1 hp1
    exact ⟨a.trans a1, b.trans b1, d⟩

theorem toStep_main {c : SCfg} {e : Env} {k : Nat} {r : OpState} (h1 : 1 ≤ k) (h2 : k ≤ c.steps) :
    (r.toStep c e k).main = some (k - 1) := by
  unfold OpState.toStep
  rw [if_neg (by omega)]
  dsimp only
  split <;> simp

theorem init_main {c : SCfg} {e : Env} {k : Nat} {r : OpState} (h1 : 1 ≤ k) (h2 : k ≤ c.steps) :
    (r.init c e k).main = some (k - 1) ∧ (r.init c e k).extra = r.extra := by
  unfold OpState.init
  dsimp only
  rw [if_neg (by omega)]
  refine ⟨?_, ?_⟩
  · rw [(Operation.foldInit_frame _ _).1]; exact toStep_main h1 h2
  · rw [(Operation.foldInit_frame _ _).2.1, Operation.toStep_extra]

theorem foldInit_act (l : List Nat) : ∀ (r : OpState) (i : Nat), i < r.act.length →
    (l.foldl (fun r k => r.initStep (k - 1)) r).act[i]? =
      if ∃ k ∈ l, k - 1 = i then some true else r.act[i]? := by
  induction l with
  | nil => intro r i _; simp
  | cons a l ih =>
    intro r i hi
    have hi' : i < (r.initStep (a - 1)).act.length := by simpa [OpState.initStep] using hi
    rw [List.foldl_cons, ih _ i hi']
    by_cases h : ∃ k ∈ l, k - 1 = i
    · obtain ⟨k, hk, e⟩ := h
      rw [if_pos ⟨k, hk, e⟩, if_pos ⟨k, List.mem_cons_of_mem _ hk, e⟩]
    · rw [if_neg h]
      by_cases ha : a - 1 = i
      · rw [if_pos ⟨a, List.mem_cons_self, ha⟩]
        subst ha
        simp [OpState.initStep, hi]
      · rw [if_neg]
        · simp [OpState.initStep, ha]
        · rintro ⟨k, hk, e⟩
          rcases List.mem_cons.1 hk with rfl | hk
          · exact ha e
          · exact h ⟨k, hk, e⟩

theorem toStep_act {c : SCfg} {e : Env} {k : Nat} {r : OpState} (h1 : 1 ≤ k) (h2 : k ≤ c.steps)
    (hl : r.act.length = c.steps) (hz : e.zeroDur (k - 1) = false) :
    (r.toStep c e k).act[k - 1]? = some true := by
  unfold OpState.toStep
  rw [if_neg (by omega)]
  dsimp only
  have : (k : Int).toNat = k := by omega
  rw [this, hz]
  have hf : r.finMain.act.length = r.act.length := by
    unfold OpState.finMain
    split <;> simp [OpState.finStep]
  have hlt : k - 1 < r.finMain.act.length := by rw [hf, hl]; omega
  show (r.finMain.act.set (k - 1) true)[k - 1]? = some true
  rw [List.getElem?_set]
  simp [hlt]

theorem toStep_len (c : SCfg) (e : Env) (k : Int) (r : OpState) : (r.toStep c e k).act.length = r.act.length := by
  have hf : r.finMain.act.length = r.act.length := by
    unfold OpState.finMain
    split <;> simp [OpState.finStep]
  unfold OpState.toStep
  split
  · rfl
  · dsimp only
    split
    · exact hf
    · simp [OpState.initStep, OpState.evalStep, hf]

theorem init_act {c : SCfg} {e : Env} {k : Nat} {r : OpState} (h1 : 1 ≤ k) (h2 : k ≤ c.steps)
    (hl : r.act.length = c.steps) (hx : ∀ j ∈ r.extra, 1 ≤ j ∧ j ≤ c.steps) :
    (e.zeroDur (k - 1) = false → (r.init c e k).act[k - 1]? = some true) ∧
    ∀ j ∈ r.extra, (r.init c e k).act[j - 1]? = some true := by
  unfold OpState.init
  dsimp only
  rw [if_neg (by omega)]
  have hl' : (OpState.toStep c e k { r with mode := true, log := r.log ++ [.init none], main := none }).act.length = c.steps := by
    rw [toStep_len]; exact hl
  refine ⟨fun hz => ?_, fun j hj => ?_⟩
  · rw [foldInit_act _ _ _ (by omega)]
    split
    · rfl
    · exact toStep_act h1 h2 hl hz
  · have := hx j hj
    rw [foldInit_act _ _ _ (by omega)]
    rw [if_pos]
    exact ⟨j, by rw [Operation.toStep_extra]; exact hj, rfl⟩

end Ptusa.Resume
